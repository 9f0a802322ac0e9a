import Verif.StringToUint.Model
/-
C01: numeric option arguments are parsed exactly.
-/
namespace Strace.StringToUint

/-! ### Specification -/

/-- the digits are the characters '0' (48) to '9' (57) … -/
theorem isDigit_iff (c : Nat) : isDigit c = true ↔ 48 ≤ c ∧ c ≤ 57 := by simp [isDigit]

/-- … and the blanks are space, \t, \n, \v, \f, \r -/
theorem isSpace_iff (c : Nat) : isSpace c = true ↔ c = 32 ∨ c = 9 ∨ c = 10 ∨ c = 11 ∨ c = 12 ∨ c = 13 := by
  simp [isSpace]; omega

/-- value of a digit string read in base ten -/
def decimal (ds : List Nat) : Nat := ds.foldl (fun a c => a * 10 + (c - 48)) 0

/-- `s` is blanks, an optional sign, a maximal non-empty digit string of value `v` and the rest
`rest`, which is empty or starts with one of the accepted terminators; the (signed) value lies in
`[0, min max LLONG_MAX]`. -/
def Accepts (s : List Nat) (max : Nat) (ending : List Nat) (v : Nat) (rest : List Nat) : Prop :=
  ∃ ws sg ds, s = ws ++ sg ++ ds ++ rest
    ∧ (∀ c ∈ ws, isSpace c = true)
    ∧ (sg = [] ∨ sg = [43] ∨ sg = [45])
    ∧ ds ≠ [] ∧ (∀ c ∈ ds, isDigit c = true)
    ∧ (∀ c t, rest = c :: t → isDigit c = false ∧ c ∈ ending)
    ∧ decimal ds = v ∧ v ≤ max ∧ v ≤ 2 ^ 63 - 1
    ∧ (sg = [45] → v = 0)

/-! ### Lemmas -/

theorem skipSpace_append (ws t : List Nat) (h : ∀ c ∈ ws, isSpace c = true) :
    skipSpace (ws ++ t) = skipSpace t := by
  induction ws with
  | nil => rfl
  | cons c ws ih =>
    simp only [List.cons_append, skipSpace, h c (by simp), if_true]
    exact ih (fun d hd => h d (by simp [hd]))

theorem skipSpace_split (s : List Nat) : ∃ ws, s = ws ++ skipSpace s ∧ (∀ c ∈ ws, isSpace c = true) ∧
    (∀ c t, skipSpace s = c :: t → isSpace c = false) := by
  induction s with
  | nil => exact ⟨[], by simp [skipSpace]⟩
  | cons c s ih =>
    by_cases hc : isSpace c = true
    · obtain ⟨ws, h1, h2, h3⟩ := ih
      refine ⟨c :: ws, ?_, ?_, ?_⟩
      · simp only [skipSpace, hc, if_true, List.cons_append]; rw [← h1]
      · intro d hd; simp at hd; rcases hd with rfl | hd
        · exact hc
        · exact h2 d hd
      · simpa [skipSpace, hc] using h3
    · refine ⟨[], by simp [skipSpace, hc], by simp, ?_⟩
      intro d t h; simp [skipSpace, hc] at h; rw [← h.1]; simpa using hc

theorem digits_append (ds rest : List Nat) (acc : Nat) (h : ∀ c ∈ ds, isDigit c = true)
    (hr : ∀ c t, rest = c :: t → isDigit c = false) :
    digits acc (ds ++ rest) = (ds.foldl (fun a c => a * 10 + (c - 48)) acc, rest) := by
  induction ds generalizing acc with
  | nil =>
    cases rest with
    | nil => rfl
    | cons c t => simp [digits, hr c t rfl]
  | cons c ds ih =>
    simp only [List.cons_append, digits, h c (by simp), if_true, List.foldl_cons]
    exact ih _ (fun d hd => h d (by simp [hd]))

theorem digits_split (s : List Nat) (acc : Nat) : ∃ ds, s = ds ++ (digits acc s).2 ∧
    (∀ c ∈ ds, isDigit c = true) ∧ (∀ c t, (digits acc s).2 = c :: t → isDigit c = false) ∧
    (digits acc s).1 = ds.foldl (fun a c => a * 10 + (c - 48)) acc := by
  induction s generalizing acc with
  | nil => exact ⟨[], by simp [digits]⟩
  | cons c s ih =>
    by_cases hc : isDigit c = true
    · obtain ⟨ds, h1, h2, h3, h4⟩ := ih (acc * 10 + (c - 48))
      refine ⟨c :: ds, ?_, ?_, ?_, ?_⟩
      · simp only [digits, hc, if_true, List.cons_append]; rw [← h1]
      · intro d hd; simp at hd; rcases hd with rfl | hd
        · exact hc
        · exact h2 d hd
      · simpa [digits, hc] using h3
      · simpa [digits, hc] using h4
    · refine ⟨[], by simp [digits, hc], by simp, ?_, by simp [digits, hc]⟩
      intro d t h; simp [digits, hc] at h; rw [← h.1]; simpa using hc

/-- normal form of `strtoll` on a text that starts with a number -/
theorem strtoll_number (ws sg ds rest : List Nat) (hw : ∀ c ∈ ws, isSpace c = true)
    (hs : sg = [] ∨ sg = [43] ∨ sg = [45]) (hd0 : ds ≠ []) (hd : ∀ c ∈ ds, isDigit c = true)
    (hr : ∀ c t, rest = c :: t → isDigit c = false) :
    strtoll (ws ++ sg ++ ds ++ rest) =
      if sg = [45] then
        if decimal ds ≤ 2 ^ 63 then ⟨-(decimal ds : Int), rest, true, false⟩
        else ⟨-(2 ^ 63 : Int), rest, true, true⟩
      else
        if decimal ds ≤ llongMax then ⟨(decimal ds : Int), rest, true, false⟩
        else ⟨(llongMax : Int), rest, true, true⟩ := by
  have hdg := digits_append ds rest 0 hd hr
  obtain ⟨d, ds', rfl⟩ := List.exists_cons_of_ne_nil hd0
  have hdd : isDigit d = true := hd d (by simp)
  have hrange : 48 ≤ d ∧ d ≤ 57 := by simpa [isDigit] using hdd
  have hnsp : isSpace d = false := by simp [isSpace]; omega
  have e : ws ++ sg ++ (d :: ds') ++ rest = ws ++ (sg ++ (d :: (ds' ++ rest))) := by simp
  have hcv : ∀ str neg, convert str neg (d :: (ds' ++ rest)) =
      if neg = true then
        if decimal (d :: ds') ≤ 2 ^ 63 then ⟨-(decimal (d :: ds') : Int), rest, true, false⟩
        else ⟨-(2 ^ 63 : Int), rest, true, true⟩
      else
        if decimal (d :: ds') ≤ llongMax then ⟨(decimal (d :: ds') : Int), rest, true, false⟩
        else ⟨(llongMax : Int), rest, true, true⟩ := by
    intro str neg
    simp only [convert, hdd, if_true]
    rw [show d :: (ds' ++ rest) = (d :: ds') ++ rest by simp, hdg]
    rfl
  rw [e]
  unfold strtoll
  rw [skipSpace_append _ _ hw]
  rcases hs with rfl | rfl | rfl
  · have hsk : skipSpace ([] ++ (d :: (ds' ++ rest))) = d :: (ds' ++ rest) := by
      simp [skipSpace, hnsp]
    have hsp : splitSign (d :: (ds' ++ rest)) = (false, d :: (ds' ++ rest)) := by
      simp only [splitSign]; rw [if_neg (by omega), if_neg (by omega)]
    rw [hsk, hsp, hcv]; simp
  · have hsk : skipSpace ([43] ++ (d :: (ds' ++ rest))) = 43 :: (d :: (ds' ++ rest)) := by
      simp [skipSpace, isSpace]
    rw [hsk]; simp only [splitSign, if_true]; rw [hcv]; simp
  · have hsk : skipSpace ([45] ++ (d :: (ds' ++ rest))) = 45 :: (d :: (ds' ++ rest)) := by
      simp [skipSpace, isSpace]
    rw [hsk]; simp only [splitSign, if_true]
    rw [if_neg (by decide)]; simp only; rw [hcv]; simp

theorem splitSign_split (s : List Nat) : ∃ sg, s = sg ++ (splitSign s).2 ∧
    (sg = [] ∨ sg = [43] ∨ sg = [45]) := by
  unfold splitSign
  split
  · exact ⟨[], by simp⟩
  · rename_i c t
    split
    · rename_i h; exact ⟨[43], by simp [h]⟩
    · split
      · rename_i h; exact ⟨[45], by simp [h]⟩
      · exact ⟨[], by simp⟩

/-- a successful conversion only happens on a text that starts with a number -/
theorem strtoll_converted (s : List Nat) (h : (strtoll s).converted = true) :
    ∃ ws sg ds, s = ws ++ sg ++ ds ++ (strtoll s).rest ∧ (∀ c ∈ ws, isSpace c = true)
      ∧ (sg = [] ∨ sg = [43] ∨ sg = [45]) ∧ ds ≠ [] ∧ (∀ c ∈ ds, isDigit c = true)
      ∧ (∀ c t, (strtoll s).rest = c :: t → isDigit c = false) := by
  obtain ⟨ws, h1, h2, _⟩ := skipSpace_split s
  obtain ⟨sg, hb1, hb2⟩ := splitSign_split (skipSpace s)
  unfold strtoll at h ⊢
  generalize (splitSign (skipSpace s)).2 = body at *
  cases body with
  | nil => simp [convert] at h
  | cons c t =>
    by_cases hc : isDigit c = true
    · obtain ⟨ds, d1, d2, d3, d4⟩ := digits_split (c :: t) 0
      have hne : ds ≠ [] := by
        intro hds
        subst hds
        have := d3 c t (by simpa using d1.symm)
        simp [this] at hc
      have hs : s = ws ++ sg ++ ds ++ (digits 0 (c :: t)).2 := by
        have e : s = ws ++ (sg ++ (c :: t)) := by rw [← hb1]; exact h1
        rw [e]; rw (occs := .pos [1]) [d1]; simp
      have hrest : ∀ neg, (convert s neg (c :: t)).rest = (digits 0 (c :: t)).2 := by
        intro neg
        simp only [convert, hc, if_true]
        split <;> split <;> rfl
      refine ⟨ws, sg, ds, ?_, h2, hb2, hne, d2, ?_⟩
      · rw [hrest]; exact hs
      · rw [hrest]; exact d3
    · simp [convert, hc] at h

/-! ### C01 -/

/-- C01.  `string_to_uint_ex` accepts exactly the texts of the grammar, and returns the value and the
unread rest. -/
theorem stringToUintEx_iff (s : List Nat) (max : Nat) (ending : Option (List Nat)) (v : Int)
    (rest : List Nat) :
    stringToUintEx s max ending = some (v, rest) ↔
      ∃ n : Nat, v = n ∧ Accepts s max (ending.getD []) n rest := by
  constructor
  · intro h
    unfold stringToUintEx at h
    split at h
    · cases h
    · simp only at h
      split at h
      · cases h
      · rename_i hne hcond
        simp only [Bool.or_eq_true, Bool.not_eq_true', decide_eq_true_eq, Bool.and_eq_true,
          beq_iff_eq, not_or, Bool.not_eq_false] at hcond
        obtain ⟨⟨⟨hconv, hneg⟩, hmax⟩, hrange⟩ := hcond
        obtain ⟨ws, sg, ds, e, hw, hs, hd0, hd, hr⟩ := strtoll_converted s hconv
        split at h
        · cases h
        · rename_i hbad
          injection h with h; injection h with hv hrest
          have hnum := strtoll_number ws sg ds (strtoll s).rest hw hs hd0 hd hr
          rw [← e] at hnum
          have hend : ∀ c t, (strtoll s).rest = c :: t → c ∈ ending.getD [] := by
            intro c t hct
            rw [hct] at hbad
            cases ending with
            | none => simp [badEnding] at hbad
            | some l => simpa [badEnding] using hbad
          subst hrest
          refine ⟨decimal ds, ?_, ws, sg, ds, e, hw, hs, hd0, hd, ?_, rfl, ?_, ?_, ?_⟩
          · subst hv
            by_cases hsg : sg = [45]
            · rw [if_pos hsg] at hnum
              split at hnum <;> rw [hnum] at hneg ⊢ <;> simp at hneg ⊢ <;> omega
            · rw [if_neg hsg] at hnum
              split at hnum
              · rw [hnum]
              · exfalso; apply hrange; rw [hnum]; simp
          · intro c t hct; exact ⟨hr c t hct, hend c t hct⟩
          · by_cases hsg : sg = [45]
            · rw [if_pos hsg] at hnum
              split at hnum <;> rw [hnum] at hneg <;> simp at hneg <;> omega
            · rw [if_neg hsg] at hnum
              split at hnum
              · rw [hnum] at hmax; simpa using hmax
              · exfalso; apply hrange; rw [hnum]; simp
          · by_cases hsg : sg = [45]
            · rw [if_pos hsg] at hnum
              split at hnum <;> rw [hnum] at hneg <;> simp at hneg <;> omega
            · rw [if_neg hsg] at hnum
              split at hnum
              · rename_i hle; exact hle
              · exfalso; apply hrange; rw [hnum]; simp
          · intro hsg
            rw [if_pos hsg] at hnum
            split at hnum <;> rw [hnum] at hneg <;> simp at hneg <;> omega
  · rintro ⟨n, rfl, ws, sg, ds, e, hw, hs, hd0, hd, hr, hval, hmax, hll, hminus⟩
    have hnum := strtoll_number ws sg ds rest hw hs hd0 hd (fun c t h => (hr c t h).1)
    rw [← e] at hnum
    have hnum' : strtoll s = ⟨(n : Int), rest, true, false⟩ := by
      rw [hnum, hval]
      by_cases hsg : sg = [45]
      · have := hminus hsg
        subst this
        simp [hsg]
      · have : n ≤ llongMax := hll
        simp [hsg, this]
    have hne : s ≠ [] := by
      intro h0; rw [h0] at e
      have := congrArg List.length e; simp at this
      exact hd0 (List.length_eq_zero_iff.mp (by omega))
    unfold stringToUintEx
    rw [hnum']
    have h1 : s.isEmpty = false := by simpa using hne
    simp only [h1]
    have h2 : (!true || decide ((n : Int) < 0) || decide ((n : Int).toNat > max) ||
        ((n : Int) == (llongMax : Int) && false)) = false := by
      simp; omega
    rw [h2]
    cases rest with
    | nil => simp [badEnding]
    | cons c t =>
      have hc := (hr c t rfl).2
      cases ending with
      | none => simp at hc
      | some l => simp at hc; simp [badEnding, hc]

/-- the rejected texts are exactly the others -/
theorem stringToUintEx_none_iff (s : List Nat) (max : Nat) (ending : Option (List Nat)) :
    stringToUintEx s max ending = none ↔ ∀ n rest, ¬ Accepts s max (ending.getD []) n rest := by
  constructor
  · intro h n rest ha
    have := (stringToUintEx_iff s max ending n rest).2 ⟨n, rfl, ha⟩
    rw [h] at this; cases this
  · intro h
    cases hc : stringToUintEx s max ending with
    | none => rfl
    | some p =>
      obtain ⟨v, rest⟩ := p
      obtain ⟨n, _, ha⟩ := (stringToUintEx_iff s max ending v rest).1 hc
      exact absurd ha (h n rest)

/-- "1024+" with terminators "+." is accepted with value 1024 and rest "+" -/
example : Accepts [49, 48, 50, 52, 43] 65535 [43, 46] 1024 [43] :=
  ⟨[], [], [49, 48, 50, 52], rfl, by simp, by simp, by simp, by decide,
    by intro c t h; injection h with h _; subst h; decide, by decide, by decide, by decide, by simp⟩
/-- " +7" is accepted; "-1", "" and "12x" are not -/
example : stringToUintEx [32, 43, 55] 10 none = some (7, []) := by decide
example : stringToUintEx [45, 49] 10 none = none := by decide
example : stringToUintEx [] 10 none = none := by decide
example : stringToUintEx [49, 50, 120] 100 none = none := by decide

end Strace.StringToUint
