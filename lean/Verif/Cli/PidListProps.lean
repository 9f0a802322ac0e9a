import Verif.Cli.PidList
import Verif.StringToUint.Props
import Mathlib.Data.List.Forall2
/-!
# C69: the processes named by `-p`
-/
namespace Strace.Cli

open Strace.StringToUint (stringToUintUpto stringToUintEx Accepts stringToUintEx_iff)

/-! ### Specification -/

/-- a blank, a tab, a line feed or a comma -/
def Sep (c : Nat) : Prop := c = 32 ∨ c = 9 ∨ c = 10 ∨ c = 44

/-- `Words t ws`: the text `t` is the words `ws` in order, with at least one separator between two words and any
number of them at the ends. -/
inductive Words : List Nat → List (List Nat) → Prop
  | nil : Words [] []
  | sep {c t ws} : Sep c → Words t ws → Words (c :: t) ws
  | last {w} : w ≠ [] → (∀ c ∈ w, ¬ Sep c) → Words w [w]
  | word {w c t ws} : w ≠ [] → (∀ c ∈ w, ¬ Sep c) → Sep c → Words t ws → Words (w ++ c :: t) (w :: ws)

/-- a word that names process `p` for a strace that is process `self` -/
def NamesPid (self : Int) (w : List Nat) (p : Int) : Prop :=
  ∃ n : Nat, p = n ∧ Accepts w (2 ^ 31 - 1) [] n [] ∧ 1 ≤ n ∧ (n : Int) ≠ self

/-! ### Lemmas -/

theorem isDelim_iff (c : Nat) : isDelim c = true ↔ Sep c := by simp [isDelim, Sep]; omega

theorem strcspn_spec (l : List Nat) :
    (∀ c ∈ l.take (strcspn l), ¬ Sep c) ∧ strcspn l ≤ l.length ∧
      (strcspn l = l.length ∨ ∃ c t, l.drop (strcspn l) = c :: t ∧ Sep c) := by
  induction l with
  | nil => simp [strcspn]
  | cons c t ih =>
    unfold strcspn
    by_cases h : isDelim c = true
    · rw [if_pos h]
      exact ⟨by simp, by simp, Or.inr ⟨c, t, rfl, (isDelim_iff c).1 h⟩⟩
    · rw [if_neg h]
      obtain ⟨h1, h2, h3⟩ := ih
      refine ⟨?_, by simp; omega, ?_⟩
      · intro x hx
        rw [List.take_succ_cons] at hx
        rcases List.mem_cons.1 hx with rfl | hx
        · exact fun hs => h ((isDelim_iff x).2 hs)
        · exact h1 x hx
      · rcases h3 with h3 | ⟨d, u, h3, h4⟩
        · left; simp; omega
        · right; exact ⟨d, u, by simpa using h3, h4⟩

theorem strcspn_word {w : List Nat} (hw : ∀ c ∈ w, ¬ Sep c) (r : List Nat) (hr : r = [] ∨ ∃ c t, r = c :: t ∧ Sep c) :
    strcspn (w ++ r) = w.length := by
  induction w with
  | nil =>
    rcases hr with rfl | ⟨c, t, rfl, hc⟩
    · rfl
    · simp [strcspn, (isDelim_iff c).2 hc]
  | cons x w ih =>
    have hx : isDelim x = false := by
      rw [Bool.eq_false_iff]; exact fun h => hw x (by simp) ((isDelim_iff x).1 h)
    simp only [List.cons_append, strcspn, hx, Bool.false_eq_true, if_false, List.length_cons]
    rw [ih fun c hc => hw c (by simp [hc])]

theorem pid_iff (self : Int) (w : List Nat) (p : Int) :
    (stringToUintUpto w (2 ^ 31 - 1) = some p ∧ ¬ p ≤ 0 ∧ p ≠ self) ↔ NamesPid self w p := by
  unfold stringToUintUpto NamesPid
  rw [Option.map_eq_some_iff]
  constructor
  · rintro ⟨⟨⟨v, r⟩, h, rfl⟩, h1, h2⟩
    obtain ⟨n, e, ha⟩ := (stringToUintEx_iff w _ none v r).1 h
    cases r with
    | nil => simp only at *; exact ⟨n, e, ha, by omega, by omega⟩
    | cons c t =>
      obtain ⟨ws, sg, ds, _, _, _, _, _, h5, _⟩ := ha
      have := (h5 c t rfl).2
      simp at this
  · rintro ⟨n, rfl, ha, h1, h2⟩
    exact ⟨⟨(n, []), (stringToUintEx_iff w _ none n []).2 ⟨n, rfl, ha⟩, rfl⟩, by omega, h2⟩

/-! ### C69 -/

/-- the words of a text exist … -/
theorem words_exist (t : List Nat) : ∃ ws, Words t ws := by
  induction h : t.length using Nat.strongRecOn generalizing t with
  | ind n ih =>
    cases t with
    | nil => exact ⟨[], .nil⟩
    | cons c t =>
      obtain ⟨h1, h2, h3⟩ := strcspn_spec (c :: t)
      by_cases h0 : strcspn (c :: t) = 0
      · rcases h3 with h3 | ⟨d, u, h3, h4⟩
        · rw [h0] at h3; simp at h3
        · rw [h0] at h3; simp at h3
          obtain ⟨ws, hw⟩ := ih t.length (by simp at h; omega) t rfl
          exact ⟨ws, .sep (by rw [h3.1]; exact h4) hw⟩
      · have hne : (c :: t).take (strcspn (c :: t)) ≠ [] := by
          intro e; have := congrArg List.length e
          simp only [List.length_take, List.length_nil] at this
          omega
        rcases h3 with h3 | ⟨d, u, h3, h4⟩
        · refine ⟨[c :: t], .last (by simp) ?_⟩
          rw [h3, List.take_length] at h1; exact h1
        · have e := (List.take_append_drop (strcspn (c :: t)) (c :: t)).symm
          rw [h3] at e
          obtain ⟨ws, hw⟩ := ih u.length (by
            have := congrArg List.length e
            simp only [List.length_append, List.length_cons] at this h; omega) u rfl
          refine ⟨(c :: t).take (strcspn (c :: t)) :: ws, ?_⟩
          have := Words.word hne h1 h4 hw
          rwa [← e] at this

/-- **C69.** `-p` names exactly the processes whose numbers are the words of its argument, in that order; if some word
is not the number of a process other than strace, strace exits. -/
theorem pid_list (self : Int) (t : List Nat) (ws : List (List Nat)) (hw : Words t ws) (got out : List Int) :
    processOptP self t got = some out ↔ ∃ ps, List.Forall₂ (NamesPid self) ws ps ∧ out = ps.reverse ++ got := by
  induction hw generalizing got out with
  | nil =>
    rw [processOptP]
    constructor
    · intro h; injection h with h; exact ⟨[], .nil, by simp [h]⟩
    · rintro ⟨ps, h, rfl⟩; cases h; rfl
  | @sep c t ws hc _ ih =>
    rw [processOptP]
    simp only [strcspn, (isDelim_iff c).2 hc, if_true]
    exact ih got out
  | @last w h0 hs =>
    cases w with
    | nil => exact absurd rfl h0
    | cons c t =>
      have hl := strcspn_word hs [] (Or.inl rfl)
      rw [List.append_nil] at hl
      rw [processOptP]
      simp only [hl, List.take_length]
      rw [if_neg (by simp)]
      constructor
      · intro h
        split at h
        · cases h
        · rename_i pid hp
          split at h
          · cases h
          split at h
          · cases h
          simp only [if_true] at h
          injection h with h
          exact ⟨[pid], .cons ((pid_iff self _ pid).1 ⟨hp, by assumption, by assumption⟩) .nil, by simp [h]⟩
      · rintro ⟨ps, h, rfl⟩
        cases h with
        | cons h1 h2 =>
          cases h2
          obtain ⟨e1, e2, e3⟩ := (pid_iff self _ _).2 h1
          rw [e1]
          simp [e2, e3]
  | @word w c u ws h0 hs hc _ ih =>
    have hl := strcspn_word hs (c :: u) (Or.inr ⟨c, u, rfl, hc⟩)
    cases w with
    | nil => exact absurd rfl h0
    | cons x w =>
      have e : (x :: w) ++ c :: u = x :: (w ++ c :: u) := rfl
      rw [e, processOptP, ← e]
      simp only [hl, List.take_left]
      rw [if_neg (by simp)]
      have hn : ¬ (x :: w).length = (x :: w ++ c :: u).length := by simp
      simp only [hn, if_false]
      have hd : ((x :: w) ++ c :: u).drop ((x :: w).length + 1) = u := by
        rw [← List.drop_drop, List.drop_left]; rfl
      constructor
      · intro h
        split at h
        · cases h
        · rename_i pid hp
          split at h
          · cases h
          split at h
          · cases h
          rw [hd] at h
          obtain ⟨ps, k1, k2⟩ := (ih _ _).1 h
          exact ⟨pid :: ps, .cons ((pid_iff self _ pid).1 ⟨hp, by assumption, by assumption⟩) k1, by simp [k2]⟩
      · rintro ⟨ps, h, rfl⟩
        cases h with
        | cons h1 h2 =>
          obtain ⟨e1, e2, e3⟩ := (pid_iff self _ _).2 h1
          rw [e1]
          simp only [e2, e3, if_false]
          rw [hd]
          exact (ih _ _).2 ⟨_, h2, by simp⟩

/-- the words of a text are determined by it -/
theorem words_unique {t : List Nat} {ws ws' : List (List Nat)} (h : Words t ws) (h' : Words t ws') : ws = ws' := by
  induction h generalizing ws' with
  | nil =>
    generalize ht : ([] : List Nat) = t at h'
    cases h' with
    | nil => rfl
    | sep => cases ht
    | last h0 => exact absurd ht.symm h0
    | word => simp at ht
  | @sep c t ws hc _ ih =>
    generalize ht : c :: t = u at h'
    cases h' with
    | nil => cases ht
    | sep _ h => injection ht with h1 h2; subst h2; exact ih h
    | last _ hs => subst ht; exact absurd hc (hs c (by simp))
    | @word w _ _ _ h0 hs =>
      cases w with
      | nil => exact absurd rfl h0
      | cons x w => injection ht with h1 h2; subst h1; exact absurd hc (hs c (by simp))
  | @last w h0 hs =>
    generalize ht : w = u at h'
    cases h' with
    | nil => exact absurd ht h0
    | @sep c _ _ hc _ => subst ht; exact absurd hc (hs c (by simp))
    | last => rfl
    | @word v c _ _ _ _ hc _ => subst ht; exact absurd hc (hs c (by simp))
  | @word w c t ws h0 hs hc _ ih =>
    generalize ht : w ++ c :: t = u at h'
    cases h' with
    | nil => simp at ht
    | @sep d _ _ hd _ =>
      cases w with
      | nil => exact absurd rfl h0
      | cons x w => injection ht with h1 h2; subst h1; exact absurd hd (hs _ (by simp))
    | last _ hs' => subst ht; exact absurd hc (hs' c (by simp))
    | @word v d u ws' h0' hs' hd h =>
      have e1 := strcspn_word hs (c :: t) (Or.inr ⟨c, t, rfl, hc⟩)
      have e2 := strcspn_word hs' (d :: u) (Or.inr ⟨d, u, rfl, hd⟩)
      rw [ht, e2] at e1
      have := List.append_inj ht e1.symm
      obtain ⟨e3, e4⟩ := this
      injection e4 with e4 e5
      subst e3 e5
      rw [ih h]

/-- "12, 7\n" -/
example : processOptP 99 [49, 50, 44, 32, 55, 10] [] = some [7, 12] := by decide +kernel
example : Words [49, 50, 44, 32, 55, 10] [[49, 50], [55]] :=
  .word (w := [49, 50]) (by simp) (by simp [Sep]) (by simp [Sep]) (.sep (by simp [Sep])
    (.word (w := [55]) (by simp) (by simp [Sep]) (by simp [Sep]) .nil))
/-- strace refuses to trace itself, and "0" -/
example : processOptP 12 [49, 50] [] = none := by decide +kernel
example : processOptP 12 [48] [] = none := by decide +kernel

end Strace.Cli
