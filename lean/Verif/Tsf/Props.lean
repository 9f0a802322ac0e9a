import Verif.Tsf.Float
import Verif.Time.Props
/-!
# A time with a fraction or an exponent is the time that is meant
-/
namespace Strace.Tsf
open Strace.Time Strace.Tsf.Spec
open Strace.Table (fl ulp near near_err near_mul ulp_pos fl_err fl_mono log2_mono)

/-! ### The time of a double -/

attribute [local irreducible] one

theorem arith {A R B I m m' : Nat} (h1 : 2 ^ 53 * m ≤ 2 ^ 53 * R + R + 2 ^ 52 * 1) (h2 : 2 ^ 53 * R ≤ 2 ^ 53 * m + R + 2 ^ 52 * 1)
    (h3 : B + m' = m) (h4 : m' < I) (h5 : R < 1000000000 * I) :
    2 ^ 53 * (A + B) ≤ 2 ^ 53 * (A + R) + 1000000000 * I + 2 ^ 52 ∧
      2 ^ 53 * (A + R) ≤ 2 ^ 53 * (A + B) + 2 ^ 53 * I + 1000000000 * I + 2 ^ 52 := by
  omega

theorem split_close {v scale : Nat} (hs : scale = 1 ∨ scale = 1000 ∨ scale = 1000000 ∨ scale = 1000000000) (hv : Double v)
    (hlt : v ≤ 2 ^ 52 * one) :
    ∃ t n, split v scale = .ok t ∧ Good t n ∧ 2 ^ 53 * (n * one) ≤ 2 ^ 53 * (v * scale) + 1000000000 * one + 2 ^ 52 ∧
      2 ^ 53 * (v * scale) ≤ 2 ^ 53 * (n * one) + 2 ^ 53 * one + 1000000000 * one + 2 ^ 52 := by
  have hone := one_pos
  have hbig := one_big
  obtain ⟨u, hu, hu0, hu9, hus⟩ : ∃ u, 1000000000 / scale = u ∧ 0 < u ∧ u ≤ 2 ^ 30 ∧ u * scale = 1000000000 := by
    rcases hs with rfl | rfl | rfl | rfl <;> exact ⟨_, rfl, by decide, by decide, by decide⟩
  have hs0 : 0 < scale := by rcases hs with rfl | rfl | rfl | rfl <;> decide
  have h53 : 2 ^ 52 * one < 2 ^ 53 * one := Nat.mul_lt_mul_of_pos_right (by decide) hone
  unfold split
  simp only [hu]
  rw [sec_eq hu0 hu9 hv hlt]
  generalize hk : v / (u * one) = k
  have hpos : 0 < u * one := Nat.mul_pos hu0 hone
  have h1 : k * u * one ≤ v := by rw [← hk, Nat.mul_assoc]; exact Nat.div_mul_le_self _ _
  have h2 : v < k * u * one + u * one := by
    rw [← hk]
    have := Nat.lt_mul_div_succ v hpos
    rw [Nat.mul_succ, Nat.mul_comm, ← Nat.mul_assoc] at this
    exact this
  have hku : k * u < 2 ^ 53 := by
    refine Nat.lt_of_mul_lt_mul_right (a := one) ?_
    omega
  have hk53 : k < 2 ^ 53 := Nat.lt_of_le_of_lt (Nat.le_mul_of_pos_right _ hu0) hku
  rw [if_neg (by omega), fl_of_double (double_whole hku), if_pos h1]
  generalize hr : v - k * u * one = r
  have hrlt : r < u * one := by omega
  have hrd : Double r := by
    refine Nat.dvd_trans (ulp_dvd (show r ≤ v by omega)) ?_
    rw [← hr]
    exact Nat.dvd_sub hv (Nat.dvd_trans (ulp_dvd_one (by omega)) (Nat.dvd_mul_left _ _))
  rw [fl_of_double hrd]
  have hmlt : fl (r * scale) 1 < 1000000000 * one := by
    refine fl_lt hs0 (by omega) hrd (Z := u * one) ?_ hrlt ?_ (Nat.le_trans hbig (Nat.le_mul_of_pos_left _ (by decide)))
    · exact Nat.dvd_trans (ulp_dvd_one (by omega)) (Nat.dvd_mul_left _ _)
    · rw [Nat.mul_one, ← Nat.mul_assoc, Nat.mul_comm scale u, hus]
  have herr := fl_err (r * scale) 1 (by omega)
  rw [Nat.mul_one, Nat.mul_one] at herr
  generalize fl (r * scale) 1 = m at hmlt herr
  have hn : m / one < 1000000000 := (Nat.div_lt_iff_lt_mul hone).2 hmlt
  have hnd := Nat.div_add_mod m one
  have hnm := Nat.mod_lt m hone
  generalize hnn : m / one = n at hn hnd
  generalize m % one = m' at hnd hnm
  have hrs : r * scale < 1000000000 * one := by
    rw [← hus, Nat.mul_assoc, Nat.mul_comm scale one, ← Nat.mul_assoc]
    exact Nat.mul_lt_mul_of_pos_right hrlt hs0
  have hvs : v * scale = k * 1000000000 * one + r * scale := by
    have e1 : k * u * one * scale = k * (u * scale) * one := by
      rw [Nat.mul_assoc, Nat.mul_comm one scale, ← Nat.mul_assoc, Nat.mul_assoc k u scale]
    rw [show v = k * u * one + r by omega, Nat.add_mul, e1, hus]
  have hno : (k * 1000000000 + n) * one = k * 1000000000 * one + one * n := by rw [Nat.add_mul, Nat.mul_comm n one]
  rw [if_neg (by omega), Nat.mod_eq_of_lt hn]
  refine ⟨_, k * 1000000000 + n, rfl, ⟨k, n, rfl, hn, rfl⟩, ?_⟩
  rw [hno, hvs]
  exact arith herr.1 herr.2 hnd hnm hrs

/-! ### Reading the text -/

theorem isDigit_iff (c : Nat) : isDigit c = true ↔ Digit c := by
  simp only [isDigit, Bool.and_eq_true, decide_eq_true_eq]
  constructor
  · intro h; exact ⟨c - 48, by omega, by omega⟩
  · rintro ⟨d, hd, rfl⟩; omega

theorem number_acc (l : List Nat) : ∀ n, l.foldl (fun n c => 10 * n + (c - 48)) n = n * 10 ^ l.length + denotes l := by
  induction l with
  | nil => intro n; simp [denotes]
  | cons c l ih =>
    intro n
    rw [List.foldl_cons, ih, denotes, List.length_cons, Nat.pow_succ, Nat.add_mul, Nat.add_assoc]
    congr 1
    rw [Nat.mul_comm 10 n, Nat.mul_assoc, Nat.mul_comm 10]

theorem number_eq (l : List Nat) : number l = denotes l := by
  have := number_acc l 0
  rw [Nat.zero_mul, Nat.zero_add] at this
  exact this

/-- The digits at the beginning of a text. -/
theorem take_digits {d r : List Nat} (hd : ∀ c ∈ d, Digit c) (hr : ∀ c ∈ r.head?, ¬ Digit c) :
    (d ++ r).takeWhile isDigit = d ∧ (d ++ r).dropWhile isDigit = r := by
  induction d with
  | nil =>
    cases r with
    | nil => exact ⟨rfl, rfl⟩
    | cons c r =>
      have h : isDigit c = false := by
        cases h : isDigit c
        · rfl
        · exact absurd ((isDigit_iff c).1 h) (hr c rfl)
      simp [h]
  | cons c d ih =>
    have h := ih fun x hx => hd x (List.mem_cons_of_mem _ hx)
    have hc := (isDigit_iff c).2 (hd c (List.mem_cons_self ..))
    simp only [List.cons_append, List.takeWhile_cons, List.dropWhile_cons, hc, if_true, h, and_self]

theorem not_digit {c : Nat} (h : c < 48 ∨ 57 < c) : ¬ Digit c := by
  rintro ⟨d, hd, rfl⟩; omega

/-- A unit does not begin like a part of a number. -/
theorem unit_head {w : List Nat} {scale : Nat} (h : unit w = some scale) :
    ∀ c ∈ w.head?, 57 < c ∧ c ≠ 101 ∧ c ≠ 69 := by
  intro c hc
  unfold unit at h
  split at h
  · cases hc
  · cases hc; split at h
    · omega
    · cases h
  · cases hc
    split at h
    · split at h
      · omega
      · split at h
        · omega
        · split at h
          · omega
          · cases h
    · cases h
  · cases h

theorem scale_cases {w : List Nat} {scale : Nat} (h : unit w = some scale) :
    scale = 1 ∨ scale = 1000 ∨ scale = 1000000 ∨ scale = 1000000000 := by
  unfold unit at h
  split at h
  · cases h; simp
  · split at h
    · cases h; simp
    · cases h
  · split at h
    · split at h
      · cases h; simp
      · split at h
        · cases h; simp
        · split at h
          · cases h; simp
          · cases h
    · cases h
  · cases h

theorem lower_eq {c x : Nat} (hx : 97 ≤ x) (hx2 : x ≤ 122) : lower c = x ↔ c = x ∨ c = x - 32 := by
  unfold lower
  split <;> omega

/-- The units that the code knows. -/
theorem unit_eq (w : List Nat) : timescaleSfx w = unit w := by
  unfold timescaleSfx units caseEq
  match w with
  | [] => rfl
  | [a] =>
    simp only [reduceCtorEq, if_false, List.find?, List.map_cons, List.map_nil, unit]
    have h : ([lower 115] == [lower a]) = decide (a = 115 ∨ a = 83) := by
      rw [Bool.eq_iff_iff]
      simp only [beq_iff_eq, List.cons.injEq, and_true, decide_eq_true_eq]
      rw [show lower 115 = 115 from rfl, eq_comm, lower_eq (by omega) (by omega)]
    rw [h]
    by_cases hc : a = 115 ∨ a = 83
    · rw [if_pos hc, decide_eq_true hc]; rfl
    · rw [if_neg hc, decide_eq_false hc]
      simp
  | [a, b] =>
    simp only [reduceCtorEq, if_false, List.find?, List.map_cons, List.map_nil, unit]
    have h : ∀ x, 97 ≤ x → x ≤ 122 → ([lower x, lower 115] == [lower a, lower b]) =
        decide ((a = x ∨ a = x - 32) ∧ (b = 115 ∨ b = 83)) := by
      intro x h1 h2
      rw [Bool.eq_iff_iff]
      simp only [beq_iff_eq, List.cons.injEq, and_true, decide_eq_true_eq]
      rw [show lower 115 = 115 from rfl, eq_comm (a := lower x), eq_comm (a := 115), lower_eq (c := b) (by omega) (by omega)]
      have : lower x = x := by unfold lower; rw [if_neg (by omega)]
      rw [this, lower_eq h1 h2]
    rw [h 109 (by omega) (by omega), h 117 (by omega) (by omega), h 110 (by omega) (by omega)]
    have h0 : ([lower 115] == [lower a, lower b]) = false := by simp
    rw [h0]
    by_cases hb : b = 115 ∨ b = 83
    · rw [if_pos hb]
      by_cases h1 : a = 109 ∨ a = 77
      · rw [if_pos h1, decide_eq_true ⟨h1, hb⟩]; rfl
      · rw [if_neg h1, decide_eq_false fun h => h1 h.1]
        by_cases h2 : a = 117 ∨ a = 85
        · rw [if_pos h2, decide_eq_true ⟨h2, hb⟩]; rfl
        · rw [if_neg h2, decide_eq_false fun h => h2 h.1]
          by_cases h3 : a = 110 ∨ a = 78
          · rw [if_pos h3, decide_eq_true ⟨h3, hb⟩]; rfl
          · rw [if_neg h3, decide_eq_false fun h => h3 h.1]; rfl
    · rw [if_neg hb, decide_eq_false fun h => hb h.2, decide_eq_false fun h => hb h.2, decide_eq_false fun h => hb h.2]; rfl
  | a :: b :: d :: r =>
    simp [unit, List.find?]

/-- The rest of a text after a number begins with nothing that could continue it. -/
def Ends (w : List Nat) : Prop := ∀ c ∈ w.head?, 57 < c ∧ c ≠ 101 ∧ c ≠ 69

/-- The text of the exponent. -/
def expText : Option (Nat × List Nat × List Nat) → List Nat
  | none => []
  | some (e, s, d) => e :: s ++ d

/-- The text of the fraction. -/
def fracText : Option (List Nat) → List Nat
  | none => []
  | some f => 46 :: f

theorem text_eq (x : Decimal) : x.text = x.sign ++ x.whole ++ fracText x.frac ++ expText x.exp := by
  unfold Decimal.text
  cases x.frac <;> cases x.exp <;> rfl

theorem sign_of {s r : List Nat} (hs : s = [] ∨ s = [43] ∨ s = [45]) (hr : ∀ c ∈ r.head?, c ≠ 43 ∧ c ≠ 45) :
    sign (s ++ r) = (decide (s = [45]), r) := by
  rcases hs with rfl | rfl | rfl
  · cases r with
    | nil => rfl
    | cons c r =>
      have := hr c rfl
      unfold sign
      split
      · rename_i h; injection h with h1 h2; omega
      · rename_i h; injection h with h1 h2; omega
      · simp
  · rfl
  · rfl

theorem head_append {d r : List Nat} (hd : d ≠ []) : (d ++ r).head? = d.head? := by
  cases d with
  | nil => exact absurd rfl hd
  | cons c d => rfl

theorem digits_head {d : List Nat} (hd : ∀ c ∈ d, Digit c) : ∀ c ∈ d.head?, 48 ≤ c ∧ c ≤ 57 := by
  intro c hc
  obtain ⟨k, hk, rfl⟩ := hd c (List.mem_of_mem_head? hc)
  omega

/-- What `exponent` finds. -/
theorem exponent_none {w : List Nat} (hw : Ends w) : exponent w = (false, 0, w) := by
  unfold exponent
  cases w with
  | nil => rfl
  | cons c r =>
    have := hw c rfl
    dsimp only
    rw [if_neg (by omega)]

theorem exponent_some {e : Nat} {s d w : List Nat} (he : e = 101 ∨ e = 69) (hs : s = [] ∨ s = [43] ∨ s = [45])
    (hd : ∀ c ∈ d, Digit c) (hne : d ≠ []) (hw : Ends w) :
    exponent (e :: s ++ d ++ w) = (decide (s = [45]), denotes d, w) := by
  have h1 : sign (s ++ (d ++ w)) = (decide (s = [45]), d ++ w) := by
    refine sign_of hs fun c hc => ?_
    rw [head_append hne] at hc
    have := digits_head hd c hc
    omega
  have h2 := take_digits (r := w) hd fun c hc => not_digit (Or.inr (hw c hc).1)
  unfold exponent
  simp only [List.cons_append, List.append_assoc]
  rw [if_pos he, h1]
  simp only [h2, if_neg hne, number_eq]

theorem fraction_some {f r : List Nat} (hf : ∀ c ∈ f, Digit c) (hr : ∀ c ∈ r.head?, ¬ Digit c) :
    fraction (46 :: (f ++ r)) = (f, r) := by
  show ((f ++ r).takeWhile isDigit, (f ++ r).dropWhile isDigit) = _
  rw [(take_digits hf hr).1, (take_digits hf hr).2]

theorem fraction_none {r : List Nat} (hr : ∀ c ∈ r.head?, c ≠ 46) : fraction r = ([], r) := by
  unfold fraction
  split
  · rename_i t
    exact absurd rfl (hr 46 rfl)
  · rfl

/-- The head of an exponent and what follows it. -/
theorem expText_head {x : Decimal} (hx : x.Ok) {w : List Nat} (hw : Ends w) : ∀ c ∈ (expText x.exp ++ w).head?, 57 < c := by
  intro c hc
  cases he : x.exp with
  | none => rw [he] at hc; exact (hw c hc).1
  | some t =>
    obtain ⟨e, s, d⟩ := t
    rw [he] at hc
    have h1 := (hx.2.2.2.2 e s d he).1
    cases hc
    omega

/-- **C127** `strtod` reads the number that is written. -/
theorem strtod_text (x : Decimal) (hx : x.Ok) (w : List Nat) (hw : Ends w) :
    strtod (x.text ++ w) = round (decide (x.sign = [45])) x.num x.den w := by
  obtain ⟨hs, hwh, hf, hne, he⟩ := hx
  have hexp := expText_head ⟨hs, hwh, hf, hne, he⟩ hw
  -- what follows the digits before the point
  have hF : ∀ c ∈ (fracText x.frac ++ (expText x.exp ++ w)).head?, ¬ Digit c := by
    intro c hc
    cases hfr : x.frac with
    | none => rw [hfr] at hc; exact not_digit (Or.inr (hexp c hc))
    | some f => rw [hfr] at hc; cases hc; exact not_digit (Or.inl (by omega))
  have hsign : sign (x.text ++ w) = (decide (x.sign = [45]), x.whole ++ (fracText x.frac ++ (expText x.exp ++ w))) := by
    rw [text_eq]
    simp only [List.append_assoc]
    refine sign_of hs fun c hc => ?_
    by_cases h0 : x.whole = []
    · cases hfr : x.frac with
      | none => exact absurd (by simp [h0, Decimal.fracDigits, hfr]) hne
      | some f =>
        rw [h0, hfr] at hc
        cases hc
        omega
    · rw [head_append h0] at hc
      have := digits_head hwh c hc
      omega
  have hd := take_digits hwh hF
  have hfrac : fraction (fracText x.frac ++ (expText x.exp ++ w)) = (x.fracDigits, expText x.exp ++ w) := by
    unfold Decimal.fracDigits at *
    cases hfr : x.frac with
    | none =>
      refine fraction_none fun c hc => ?_
      have := hexp c hc
      omega
    | some f =>
      rw [hfr] at hf
      exact fraction_some hf fun c hc => not_digit (Or.inr (hexp c hc))
  unfold strtod
  rw [hsign]
  simp only [hd, hfrac]
  rw [if_neg (fun h => hne (by rw [h.1, h.2]; rfl))]
  unfold Decimal.num Decimal.den
  cases hex : x.exp with
  | none =>
    rw [show expText none ++ w = w from rfl, exponent_none hw]
    simp only [Bool.false_eq_true, if_false, number_eq, Nat.pow_zero, Nat.mul_one]
  | some t =>
    obtain ⟨e, s, d⟩ := t
    have h1 := he e s d hex
    rw [show expText (some (e, s, d)) ++ w = e :: s ++ d ++ w from rfl, exponent_some h1.1 h1.2.1 h1.2.2.1 h1.2.2.2 hw]
    by_cases hneg : s = [45]
    · simp only [hneg, decide_true, if_true, number_eq, Nat.pow_add, Nat.mul_one]
    · simp only [hneg, decide_false, Bool.false_eq_true, if_false, number_eq, Nat.mul_one]

/-! ### Which branch -/

theorem takeWhile_ge {p : Nat → Bool} (t r : List Nat) (h : ∀ c ∈ t, p c = true) : t.length ≤ ((t ++ r).takeWhile p).length := by
  induction t with
  | nil => simp
  | cons c t ih =>
    have hc := h c (List.mem_cons_self ..)
    have := ih fun y hy => h y (List.mem_cons_of_mem _ hy)
    simp only [List.cons_append, List.takeWhile_cons, hc, if_true, List.length_cons]
    omega

theorem takeWhile_lt {p : Nat → Bool} (t r : List Nat) (h : ∃ c ∈ t, p c = false) : ((t ++ r).takeWhile p).length < t.length := by
  induction t with
  | nil => obtain ⟨c, hc, _⟩ := h; cases hc
  | cons c t ih =>
    cases hc : p c with
    | false => simp [hc]
    | true =>
      simp only [List.cons_append, List.takeWhile_cons, hc, if_true, List.length_cons]
      obtain ⟨y, hy, hpy⟩ := h
      rcases List.mem_cons.1 hy with rfl | hy
      · rw [hc] at hpy; cases hpy
      · have := ih ⟨y, hy, hpy⟩
        omega

theorem digit_float {c : Nat} (h : Digit c) : floatAccept.contains c = true := by
  obtain ⟨d, hd, rfl⟩ := h
  have : ∀ d < 10, floatAccept.contains (48 + d) = true := by decide
  exact this d hd

theorem sign_float {s : List Nat} (h : s = [] ∨ s = [43] ∨ s = [45]) : ∀ c ∈ s, floatAccept.contains c = true := by
  rcases h with rfl | rfl | rfl <;> decide

/-- All of the number is of the characters of floating point numbers. -/
theorem text_float (x : Decimal) (hx : x.Ok) : ∀ c ∈ x.text, floatAccept.contains c = true := by
  obtain ⟨hs, hwh, hf, hne, he⟩ := hx
  intro c hc
  rw [text_eq] at hc
  simp only [List.mem_append] at hc
  rcases hc with ((hc | hc) | hc) | hc
  · exact sign_float hs c hc
  · exact digit_float (hwh c hc)
  · cases hfr : x.frac with
    | none => rw [hfr] at hc; cases hc
    | some f =>
      rw [hfr] at hc
      rcases List.mem_cons.1 hc with rfl | hc
      · decide
      · exact digit_float (hf c (by unfold Decimal.fracDigits; rw [hfr]; exact hc))
  · cases hex : x.exp with
    | none => rw [hex] at hc; cases hc
    | some t =>
      obtain ⟨e, s, d⟩ := t
      have h1 := he e s d hex
      rw [hex] at hc
      simp only [expText, List.cons_append, List.mem_cons, List.mem_append] at hc
      rcases hc with rfl | hc | hc
      · rcases h1.1 with rfl | rfl <;> decide
      · exact sign_float h1.2.1 c hc
      · exact digit_float (h1.2.2.1 c hc)

/-- A number with a point, an exponent or a minus sign is read as a floating point number. -/
theorem is_float (x : Decimal) (hx : x.Ok) (hf : x.frac ≠ none ∨ x.exp ≠ none ∨ x.sign = [45]) (w : List Nat) :
    strspn (x.text ++ w) floatAccept > strspn (x.text ++ w) intAccept := by
  unfold strspn
  refine Nat.lt_of_lt_of_le (takeWhile_lt x.text w ?_) (takeWhile_ge x.text w (text_float x hx))
  rw [text_eq]
  rcases hf with hf | hf | hf
  · cases hfr : x.frac with
    | none => exact absurd hfr hf
    | some f => exact ⟨46, by simp [fracText], by decide⟩
  · cases hex : x.exp with
    | none => exact absurd hex hf
    | some t =>
      obtain ⟨e, s, d⟩ := t
      refine ⟨e, by simp [expText], ?_⟩
      rcases (hx.2.2.2.2 e s d hex).1 with rfl | rfl <;> decide
  · exact ⟨45, by simp [hf], by decide⟩

/-! ### The time that is meant -/

theorem den_pos (x : Decimal) : 0 < x.den := by
  unfold Decimal.den
  refine Nat.mul_pos (Nat.pow_pos (by decide)) ?_
  split
  · decide
  · split
    · exact Nat.pow_pos (by decide)
    · decide

theorem one_eq : 2 ^ 1022 * 2 ^ 52 = one := by
  unfold one
  rw [← Nat.pow_add]

/-- The double of a number that is not too large and not too small. -/
theorem round_val {neg : Bool} {p q : Nat} {rest : List Nat} (hq : 0 < q) (hlt : p < 2 ^ 52 * q)
    (hsmall : p = 0 ∨ q ≤ 2 ^ 1022 * p) :
    round neg p q rest = .val neg (fl (p * one) q) rest ∧ fl (p * one) q ≤ 2 ^ 52 * one := by
  have hone := one_pos
  have h1 : fl (p * one) q ≤ 2 ^ 52 * one := by
    have := fl_mono (p * one) q (2 ^ 52 * one) 1 hq (by omega) (by
      rw [Nat.mul_one, Nat.mul_assoc, Nat.mul_comm one q, ← Nat.mul_assoc]
      exact Nat.mul_le_mul_right _ (Nat.le_of_lt hlt))
    rwa [fl_of_double (double_whole (by decide))] at this
  have h2 : (2 : Nat) ^ 52 * one < 2 ^ 1024 * one :=
    Nat.mul_lt_mul_of_pos_right (Nat.pow_lt_pow_right (by decide) (by decide)) hone
  have h3 : ¬ 2 ^ 1024 * one ≤ fl (p * one) q := Nat.not_le.2 (Nat.lt_of_le_of_lt h1 h2)
  have h4 : ¬ (fl (p * one) q < 2 ^ 52 ∧ fl (p * one) q * q ≠ p * one) := by
    rintro ⟨ha, hb⟩
    rcases hsmall with rfl | hs
    · refine hb ?_
      have : fl (0 * one) q = 0 := by
        rw [Nat.zero_mul]
        have := fl_mono 0 q 0 1 hq (by omega) (by omega)
        rw [fl_of_double (show Double 0 from Nat.dvd_zero _)] at this
        exact Nat.le_zero.1 this
      rw [this, Nat.zero_mul, Nat.zero_mul]
    · have h5 := fl_mono (2 ^ 52) 1 (p * one) q (by omega) hq (by
        rw [Nat.mul_one, ← one_eq, ← Nat.mul_assoc, Nat.mul_comm p, Nat.mul_comm (2 ^ 52) q]
        exact Nat.mul_le_mul_right _ hs)
      have h6 : Double (2 ^ 52) := by
        unfold Double ulp
        rw [Nat.log2_two_pow]
        exact Nat.one_dvd _
      rw [fl_of_double h6] at h5
      exact absurd ha (Nat.not_lt.2 h5)
  unfold round
  simp only
  rw [if_neg h3, if_neg h4]
  exact ⟨rfl, h1⟩

theorem arith2 {n q v p P s I : Nat} (hI : 0 < I) (hI2 : 2 ^ 83 ≤ I) (hP : P = p * s) (hs : s ≤ 1000000000)
    (h1 : 2 ^ 53 * (v * q) ≤ 2 ^ 53 * (p * I) + p * I + 2 ^ 52 * q)
    (h2 : 2 ^ 53 * (p * I) ≤ 2 ^ 53 * (v * q) + p * I + 2 ^ 52 * q)
    (h3 : 2 ^ 53 * (n * I) ≤ 2 ^ 53 * (v * s) + 1000000000 * I + 2 ^ 52)
    (h4 : 2 ^ 53 * (v * s) ≤ 2 ^ 53 * (n * I) + 2 ^ 53 * I + 1000000000 * I + 2 ^ 52) :
    2 ^ 53 * (n * q) ≤ 2 ^ 53 * P + P + 2 ^ 31 * q ∧
      2 ^ 53 * P ≤ 2 ^ 53 * (n * q) + P + 2 ^ 53 * q + 2 ^ 31 * q := by
  -- multiply by `q` and by `s`
  have a1 := Nat.mul_le_mul_right s h1
  have a2 := Nat.mul_le_mul_right s h2
  have a3 := Nat.mul_le_mul_right q h3
  have a4 := Nat.mul_le_mul_right q h4
  have e1 : v * q * s = v * s * q := by rw [Nat.mul_assoc, Nat.mul_comm q s, Nat.mul_assoc]
  have e2 : p * I * s = P * I := by rw [hP, Nat.mul_assoc, Nat.mul_comm I s, Nat.mul_assoc]
  have e3 : n * I * q = n * q * I := by rw [Nat.mul_assoc, Nat.mul_comm I q, Nat.mul_assoc]
  have e4 : I * q = q * I := Nat.mul_comm _ _
  have b1 : q * s ≤ q * 1000000000 := Nat.mul_le_mul_left _ hs
  have b2 : q * 2 ^ 83 ≤ q * I := Nat.mul_le_mul_left _ hI2
  have m1 : ∀ c y z k : Nat, c * (y * z) * k = c * (y * z * k) := fun c y z k => Nat.mul_assoc _ _ _
  rw [Nat.add_mul, Nat.add_mul, m1, m1, e1, e2, Nat.mul_assoc (2 ^ 52)] at a1 a2
  rw [Nat.add_mul, Nat.add_mul, m1, m1, e3, Nat.mul_assoc 1000000000, e4] at a3
  rw [Nat.add_mul, Nat.add_mul, Nat.add_mul, m1, m1, e3, Nat.mul_assoc 1000000000, Nat.mul_assoc (2 ^ 53) I q, e4] at a4
  have g1 : (2 ^ 53 * P + P + 2 ^ 31 * q) * I = 2 ^ 53 * (P * I) + P * I + 2 ^ 31 * (q * I) := by
    rw [Nat.add_mul, Nat.add_mul, Nat.mul_assoc, Nat.mul_assoc]
  have g2 : 2 ^ 53 * (n * q) * I = 2 ^ 53 * (n * q * I) := Nat.mul_assoc _ _ _
  have g3 : (2 ^ 53 * (n * q) + P + 2 ^ 53 * q + 2 ^ 31 * q) * I =
      2 ^ 53 * (n * q * I) + P * I + 2 ^ 53 * (q * I) + 2 ^ 31 * (q * I) := by
    rw [Nat.add_mul, Nat.add_mul, Nat.add_mul, g2, Nat.mul_assoc (2 ^ 53) q, Nat.mul_assoc (2 ^ 31) q]
  have g4 : 2 ^ 53 * P * I = 2 ^ 53 * (P * I) := Nat.mul_assoc _ _ _
  constructor
  · refine Nat.le_of_mul_le_mul_right (c := I) ?_ hI
    rw [g1, g2]
    generalize v * s * q = x1 at *
    generalize P * I = x2 at *
    generalize n * q * I = x3 at *
    generalize q * I = x4 at *
    generalize q * s = x5 at *
    omega
  · refine Nat.le_of_mul_le_mul_right (c := I) ?_ hI
    rw [g3, g4]
    generalize v * s * q = x1 at *
    generalize P * I = x2 at *
    generalize n * q * I = x3 at *
    generalize q * I = x4 at *
    generalize q * s = x5 at *
    omega

/-- **C127** A number with a point or an exponent, and a unit, is accepted, and the time in nanoseconds is that number of units:
at most 2^-22 nanoseconds and the precision of binary64 (2^-53 of the time) more, and at most a nanosecond and so much less.
Partial: for numbers below 2^52 that are zero or at least 2^-1022. -/
theorem time_close_partial (x : Decimal) (hx : x.Ok) (hs : x.sign ≠ [45]) (hf : x.frac ≠ none ∨ x.exp ≠ none) (w : List Nat)
    (scale : Nat) (hw : unit w = some scale) (hlt : x.num < 2 ^ 52 * x.den) (hsmall : x.num = 0 ∨ x.den ≤ 2 ^ 1022 * x.num) :
    ∃ t n, parseTs (x.text ++ w) = .ok t ∧ Good t n ∧
      2 ^ 53 * (n * x.den) ≤ 2 ^ 53 * (x.num * scale) + x.num * scale + 2 ^ 31 * x.den ∧
      2 ^ 53 * (x.num * scale) ≤ 2 ^ 53 * (n * x.den) + x.num * scale + 2 ^ 53 * x.den + 2 ^ 31 * x.den := by
  have hq := den_pos x
  obtain ⟨hv, hle⟩ := round_val (neg := decide (x.sign = [45])) (rest := w) hq hlt hsmall
  have hsc := scale_cases hw
  obtain ⟨t, n, ht, hg, h3, h4⟩ := split_close hsc (double_fl (x.num * one) x.den hq) hle
  refine ⟨t, n, ?_, hg, ?_⟩
  · unfold parseTs
    have hbr := is_float x hx (by rcases hf with h | h <;> simp [h]) w
    rw [if_pos hbr]
    unfold parseFloat
    rw [strtod_text x hx w (unit_head hw), hv]
    simp only [hs, decide_false, Bool.false_eq_true, false_and, if_false]
    rw [unit_eq, hw]
    exact ht
  · have he := fl_err (x.num * one) x.den hq
    refine arith2 one_pos ?_ rfl (by rcases hsc with rfl | rfl | rfl | rfl <;> decide) he.1 he.2 h3 h4
    unfold one
    exact Nat.pow_le_pow_right (by omega) (by omega)

/-- A number is out of range, or it is the double. -/
theorem round_cases (neg : Bool) (p q : Nat) (rest : List Nat) :
    round neg p q rest = .range ∨
      round neg p q rest = .val neg (fl (p * one) q) rest ∧ ¬ (fl (p * one) q < 2 ^ 52 ∧ fl (p * one) q * q ≠ p * one) := by
  unfold round
  simp only
  by_cases h1 : 2 ^ 1024 * one ≤ fl (p * one) q
  · left; rw [if_pos h1]
  · rw [if_neg h1]
    by_cases h2 : fl (p * one) q < 2 ^ 52 ∧ fl (p * one) q * q ≠ p * one
    · left; rw [if_pos h2]
    · right; rw [if_neg h2]; exact ⟨rfl, h2⟩

/-- **C127** A negative number is rejected, with any unit. -/
theorem negative_rejected (x : Decimal) (hx : x.Ok) (hs : x.sign = [45]) (h0 : x.num ≠ 0) (w : List Nat) (hw : Ends w) :
    parseTs (x.text ++ w) = .reject := by
  unfold parseTs
  rw [if_pos (is_float x hx (Or.inr (Or.inr hs)) w)]
  unfold parseFloat
  rw [strtod_text x hx w hw]
  rcases round_cases (decide (x.sign = [45])) x.num x.den w with h | ⟨h, hn⟩
  · rw [h]
  · rw [h]
    generalize fl (x.num * one) x.den = v at *
    simp only
    rw [if_pos]
    refine ⟨decide_eq_true hs, fun hz => ?_⟩
    rw [hz] at hn
    refine hn ⟨Nat.two_pow_pos _, ?_⟩
    rw [Nat.zero_mul]
    exact Nat.ne_of_lt (Nat.mul_pos (Nat.pos_of_ne_zero h0) one_pos)

/-- **C127** A number with something after it that is no unit is rejected. -/
theorem no_unit_rejected (x : Decimal) (hx : x.Ok) (hf : x.frac ≠ none ∨ x.exp ≠ none) (w : List Nat)
    (hw : Ends w) (hu : unit w = none) : parseTs (x.text ++ w) = .reject := by
  unfold parseTs
  rw [if_pos (is_float x hx (by rcases hf with h | h <;> simp [h]) w)]
  unfold parseFloat
  rw [strtod_text x hx w hw]
  rcases round_cases (decide (x.sign = [45])) x.num x.den w with h | ⟨h, _⟩
  · rw [h]
  · rw [h]
    generalize fl (x.num * one) x.den = v
    simp only
    rw [unit_eq, hu]
    split <;> rfl

/-! ### What is accepted -/

theorem takeWhile_digits (l : List Nat) : ∀ c ∈ l.takeWhile isDigit, Digit c := by
  induction l with
  | nil => intro c hc; cases hc
  | cons a l ih =>
    intro c hc
    rw [List.takeWhile_cons] at hc
    split at hc
    · rename_i h
      rcases List.mem_cons.1 hc with rfl | hc
      · exact (isDigit_iff _).1 h
      · exact ih c hc
    · cases hc

theorem sign_form (s : List Nat) : ∃ g, s = g ++ (sign s).2 ∧ (g = [] ∨ g = [43] ∨ g = [45]) ∧ (sign s).1 = decide (g = [45]) := by
  unfold sign
  split
  · exact ⟨[43], rfl, by simp, by simp⟩
  · exact ⟨[45], rfl, by simp, by simp⟩
  · exact ⟨[], rfl, by simp, by simp⟩

theorem fraction_form (r : List Nat) : ∃ f : Option (List Nat), r = fracText f ++ (fraction r).2 ∧ f.getD [] = (fraction r).1 ∧
    ∀ c ∈ f.getD [], Digit c := by
  unfold fraction
  split
  · rename_i t
    refine ⟨some (t.takeWhile isDigit), ?_, rfl, takeWhile_digits t⟩
    show 46 :: t = 46 :: (t.takeWhile isDigit ++ t.dropWhile isDigit)
    rw [List.takeWhile_append_dropWhile]
  · exact ⟨none, rfl, rfl, fun c hc => by cases hc⟩

theorem exponent_form (r : List Nat) : ∃ e : Option (Nat × List Nat × List Nat), r = expText e ++ (exponent r).2.2 ∧
    (∀ c g d, e = some (c, g, d) →
      (c = 101 ∨ c = 69) ∧ (g = [] ∨ g = [43] ∨ g = [45]) ∧ (∀ c ∈ d, Digit c) ∧ d ≠ []) ∧
    (match e with
     | none => (exponent r).1 = false ∧ (exponent r).2.1 = 0
     | some (_, g, d) => (exponent r).1 = decide (g = [45]) ∧ (exponent r).2.1 = denotes d) := by
  cases r with
  | nil => exact ⟨none, rfl, fun _ _ _ h => (by cases h), rfl, rfl⟩
  | cons c r =>
    unfold exponent
    dsimp only
    by_cases hc : c = 101 ∨ c = 69
    · rw [if_pos hc]
      by_cases hd : (sign r).2.takeWhile isDigit = []
      · rw [if_pos hd]
        exact ⟨none, rfl, fun _ _ _ h => (by cases h), rfl, rfl⟩
      · rw [if_neg hd]
        obtain ⟨g, h1, h2, h3⟩ := sign_form r
        refine ⟨some (c, g, (sign r).2.takeWhile isDigit), ?_, ?_, h3, number_eq _⟩
        · show c :: r = c :: (g ++ (sign r).2.takeWhile isDigit) ++ (sign r).2.dropWhile isDigit
          rw [List.cons_append, List.append_assoc, List.takeWhile_append_dropWhile, ← h1]
        · intro c' g' d' h
          injection h with h
          injection h with h4 h
          injection h with h5 h6
          subst h4 h5 h6
          exact ⟨hc, h2, takeWhile_digits _, hd⟩
    · rw [if_neg hc]
      exact ⟨none, rfl, fun _ _ _ h => (by cases h), rfl, rfl⟩

/-- What `strtod` reads as a number is the text of one. -/
theorem strtod_form (s : List Nat) : strtod s = .none ∨ (∃ r, strtod s = .nan r ∧ s.head? = some 45 ∧
      ((s.drop 1).take 3).map lower = [110, 97, 110] ∧ r = s.drop 4) ∨
    ∃ (x : Decimal) (w : List Nat), s = x.text ++ w ∧ x.Ok ∧ strtod s = round (decide (x.sign = [45])) x.num x.den w := by
  obtain ⟨g, hg1, hg2, hg3⟩ := sign_form s
  obtain ⟨f, hf1, hf2, hf3⟩ := fraction_form ((sign s).2.dropWhile isDigit)
  obtain ⟨e, he1, he2, he3⟩ := exponent_form (fraction ((sign s).2.dropWhile isDigit)).2
  by_cases h0 : (sign s).2.takeWhile isDigit = [] ∧ (fraction ((sign s).2.dropWhile isDigit)).1 = []
  · by_cases hn : (sign s).1 = true ∧ caseEq ((sign s).2.take 3) [110, 97, 110] = true
    · right; left
      refine ⟨(sign s).2.drop 3, by unfold strtod; simp only; rw [if_pos h0, if_pos hn], ?_⟩
      have hg : g = [45] := by rw [hg3] at hn; exact of_decide_eq_true hn.1
      subst hg
      have h2 := hn.2
      unfold caseEq at h2
      rw [beq_iff_eq] at h2
      have e1 : s.drop 1 = (sign s).2 := by rw [hg1]; rfl
      have e2 : s.head? = some 45 := by rw [hg1]; rfl
      have e3 : s.drop 4 = (sign s).2.drop 3 := by rw [← e1, List.drop_drop]
      rw [e1, e2, e3]
      exact ⟨rfl, by rw [h2]; rfl, rfl⟩
    · left
      unfold strtod
      simp only
      rw [if_pos h0, if_neg hn]
  · right; right
    refine ⟨⟨g, (sign s).2.takeWhile isDigit, f, e⟩, (exponent (fraction ((sign s).2.dropWhile isDigit)).2).2.2, ?_,
      ⟨hg2, takeWhile_digits _, hf3, ?_, he2⟩, ?_⟩
    · rw [text_eq]
      simp only [List.append_assoc]
      rw [← he1, ← hf1, List.takeWhile_append_dropWhile, ← hg1]
    · intro h
      have := List.append_eq_nil_iff.1 h
      refine h0 ⟨this.1, ?_⟩
      rw [← hf2]
      exact this.2
    · unfold strtod
      simp only
      rw [if_neg h0]
      unfold Decimal.num Decimal.den Decimal.fracDigits
      simp only
      rw [hf2, hg3]
      cases e with
      | none =>
        simp only at he3
        rw [he3.1, he3.2]
        simp only [Bool.false_eq_true, if_false, number_eq, Nat.pow_zero, Nat.mul_one]
      | some t =>
        obtain ⟨c, g', d⟩ := t
        simp only at he3
        rw [he3.1, he3.2]
        by_cases hneg : g' = [45]
        · simp only [hneg, decide_true, if_true, number_eq, Nat.pow_add, Nat.mul_one]
        · simp only [hneg, decide_false, Bool.false_eq_true, if_false, number_eq, Nat.mul_one]

/-- A number that is zero as a double is zero, or it is out of range. -/
theorem zero_of_round {neg : Bool} {p q : Nat} {w rest : List Nat} {neg' : Bool} (h : round neg p q w = .val neg' 0 rest) : p = 0 := by
  rcases round_cases neg p q w with h1 | ⟨h1, h2⟩
  · rw [h1] at h; cases h
  · rw [h1] at h
    have h3 : fl (p * one) q = 0 := by
      generalize fl (p * one) q = v at h
      cases h
      rfl
    refine Classical.byContradiction fun hp => h2 ?_
    rw [h3, Nat.zero_mul]
    exact ⟨Nat.two_pow_pos _, Nat.ne_of_lt (Nat.mul_pos (Nat.pos_of_ne_zero hp) one_pos)⟩

/-- **C127** What is not rejected is a number and a unit, and the number is not negative; or, to no good, it is "-nan" and a
unit. -/
theorem accepted_form (s : List Nat) (hf : strspn s floatAccept > strspn s intAccept) (h : parseTs s ≠ .reject) :
    (∃ (x : Decimal) (w : List Nat), s = x.text ++ w ∧ x.Ok ∧ (unit w).isSome = true ∧ (x.sign = [45] → x.num = 0)) ∨
      parseTs s = .undefined ∧ s.head? = some 45 ∧ ((s.drop 1).take 3).map lower = [110, 97, 110] := by
  unfold parseTs at h ⊢
  rw [if_pos hf] at h ⊢
  unfold parseFloat at h ⊢
  rcases strtod_form s with hn | ⟨r, hn, h1, h2, _⟩ | ⟨x, w, hs, hx, hr⟩
  · rw [hn] at h; exact absurd rfl h
  · right
    rw [hn] at h ⊢
    simp only at h ⊢
    cases hu : timescaleSfx r with
    | none => rw [hu] at h; exact absurd rfl h
    | some _ => exact ⟨rfl, h1, h2⟩
  · left
    refine ⟨x, w, hs, hx, ?_⟩
    rcases round_cases (decide (x.sign = [45])) x.num x.den w with h1 | ⟨h1, h2⟩
    · rw [hr, h1] at h; exact absurd rfl h
    · rw [hr, h1] at h
      simp only at h
      have hz : decide (x.sign = [45]) = true → fl (x.num * one) x.den = 0 := by
        intro hs
        refine Classical.byContradiction fun hv => h ?_
        rw [if_pos ⟨hs, hv⟩]
      constructor
      · cases hu : timescaleSfx w with
        | some _ => rw [unit_eq] at hu; rw [hu]; rfl
        | none =>
          rw [hu] at h
          refine absurd ?_ h
          split <;> rfl
      · intro hs
        rw [hz (decide_eq_true hs)] at h1
        exact zero_of_round h1

/-- **C127** The behaviour is not defined only for "-nan" and for numbers that are 2^52 or more. -/
theorem undefined_form (s : List Nat) (h : parseTs s = .undefined) :
    (∃ (x : Decimal) (w : List Nat), s = x.text ++ w ∧ x.Ok ∧ 2 ^ 52 * x.den ≤ x.num) ∨
      s.head? = some 45 ∧ ((s.drop 1).take 3).map lower = [110, 97, 110] := by
  unfold parseTs at h
  split at h
  · unfold parseFloat at h
    rcases strtod_form s with hn | ⟨r, hn, h1, h2, _⟩ | ⟨x, w, hs, hx, hr⟩
    · rw [hn] at h; cases h
    · exact Or.inr ⟨h1, h2⟩
    · left
      refine ⟨x, w, hs, hx, Nat.le_of_not_lt fun hlt => ?_⟩
      have hq := den_pos x
      rcases round_cases (decide (x.sign = [45])) x.num x.den w with h1 | ⟨h1, h2⟩
      · rw [hr, h1] at h; cases h
      · rw [hr, h1] at h
        have hle : fl (x.num * one) x.den ≤ 2 ^ 52 * one := by
          have := fl_mono (x.num * one) x.den (2 ^ 52 * one) 1 hq (by omega) (by
            rw [Nat.mul_one, Nat.mul_assoc, Nat.mul_comm one, ← Nat.mul_assoc]
            exact Nat.mul_le_mul_right _ (Nat.le_of_lt hlt))
          rwa [fl_of_double (double_whole (by decide))] at this
        have hd := double_fl (x.num * one) x.den hq
        generalize fl (x.num * one) x.den = v at h hle hd
        simp only at h
        split at h
        · cases h
        · cases hu : timescaleSfx w with
          | none => rw [hu] at h; cases h
          | some scale =>
            rw [hu] at h
            simp only at h
            rw [unit_eq] at hu
            obtain ⟨t, n, ht, _⟩ := split_close (scale_cases hu) hd hle
            rw [ht] at h
            cases h
  · split at h <;> cases h

/-! ### Cases -/

/-- **C127** "4.35s" is not 4.35 seconds: it is a nanosecond less. -/
theorem not_exact : parseTs [52, 46, 51, 53, 115] = .ok ⟨4, 349999999⟩ := by decide +kernel

/-- **C127** The behaviour for "1e30" and "-nan" is not defined. -/
theorem not_defined : parseTs [49, 101, 51, 48] = .undefined ∧ parseTs [45, 110, 97, 110] = .undefined := by decide +kernel

/-- "1.5ms", "0.25s", "2e3", "-0." -/
example : parseTs [49, 46, 53, 109, 115] = .ok ⟨0, 1500000⟩ ∧ parseTs [48, 46, 50, 53, 115] = .ok ⟨0, 250000000⟩ ∧
    parseTs [50, 101, 51] = .ok ⟨0, 2000000⟩ ∧ parseTs [45, 48, 46] = .ok ⟨0, 0⟩ := by decide +kernel

theorem small_le {a b : Nat} (h : a ≤ 2 ^ 4 * b) : a ≤ 2 ^ 1022 * b :=
  Nat.le_trans h (Nat.mul_le_mul_right b (Nat.pow_le_pow_right (by omega) (by omega)))

/-- "1.5ms" as a number and its unit. -/
example : ∃ x : Decimal, x.text ++ [109, 115] = [49, 46, 53, 109, 115] ∧ x.Ok ∧ x.sign ≠ [45] ∧ x.frac ≠ none ∧
    unit [109, 115] = some 1000000 ∧ x.num < 2 ^ 52 * x.den ∧ (x.num = 0 ∨ x.den ≤ 2 ^ 1022 * x.num) := by
  refine ⟨⟨[], [49], some [53], none⟩, rfl, ⟨Or.inl rfl, ?_, ?_, by simp, fun _ _ _ h => by cases h⟩, by simp, by simp, rfl, by decide,
    Or.inr ?_⟩
  · intro c hc; simp at hc; exact ⟨1, by omega, by omega⟩
  · intro c hc; simp [Decimal.fracDigits] at hc; exact ⟨5, by omega, by omega⟩
  · exact small_le (by decide)

/-- "1.5x" has no unit; "-2.5s" is negative. -/
example : parseTs [49, 46, 53, 120] = .reject ∧ parseTs [45, 50, 46, 53, 115] = .reject := by decide +kernel

end Strace.Tsf
