import Verif.Cli.Names
import Verif.StringToUint.Props
import Mathlib.Tactic.ByContra
/-!
# C68: the names shown for signals and errors are the names accepted for them
-/
namespace Strace.Cli

open Strace.StringToUint (stringToUintUpto stringToUintEx Accepts stringToUintEx_iff stringToUintEx_none_iff)
open Strace.Filter (codes caseEq toLower)

/-! ### Specification -/

/-- the same letter, whatever its case; any other character only equals itself -/
def sameLetter (a b : Nat) : Prop := a = b ∨ (65 ≤ a ∧ a ≤ 90 ∧ b = a + 32) ∨ (65 ≤ b ∧ b ≤ 90 ∧ a = b + 32)

/-- the same text, whatever the case of its letters -/
def sameText : List Nat → List Nat → Prop
  | [], [] => True
  | a :: as, b :: bs => sameLetter a b ∧ sameText as bs
  | _, _ => False

/-- the text "SIG" -/
def SIG : List Nat := [83, 73, 71]

/-- value of a digit string in base ten -/
def decVal (l : List Nat) : Nat := l.foldl (fun a c => 10 * a + (c - 48)) 0

/-- a non-empty string of decimal digits -/
def Digits (l : List Nat) : Prop := l ≠ [] ∧ ∀ c ∈ l, 48 ≤ c ∧ c ≤ 57

/-- the texts that stand for signal `i`: its number in decimal (at most 255), or the name the trace shows for it, in
any letter case, with or without the leading "SIG" -/
def SignalText (N : Names) (t : List Nat) (i : Nat) : Prop :=
  (Digits t ∧ decVal t = i ∧ i ≤ 255) ∨
  (1 ≤ i ∧ ∃ tail, signame N i = some (SIG ++ tail) ∧ (sameText t (SIG ++ tail) ∨ sameText t tail))

/-- the texts that stand for error `v`: a number accepted by the option syntax (C01), or the name the trace shows for
it, in any letter case -/
def ErrorText (N : Names) (t : List Nat) (v : Nat) : Prop :=
  Accepts t 4095 [] v [] ∨ ∃ e, errName N v = some e ∧ sameText t e

/-! ### Lemmas -/

theorem toLower_eq_iff (a b : Nat) : toLower a = toLower b ↔ sameLetter a b := by
  unfold toLower sameLetter; split <;> split <;> omega

theorem caseEq_iff (a b : List Nat) : caseEq a b = true ↔ sameText a b := by
  unfold caseEq
  rw [beq_iff_eq]
  induction a generalizing b with
  | nil => cases b <;> simp [sameText]
  | cons x xs ih =>
    cases b with
    | nil => simp [sameText]
    | cons y ys => simp [sameText, toLower_eq_iff, ih]

theorem sameText_refl (a : List Nat) : sameText a a := by
  rw [← caseEq_iff]; simp [caseEq]

theorem sameText_symm {a b : List Nat} (h : sameText a b) : sameText b a := by
  rw [← caseEq_iff] at *; unfold caseEq at *; rw [beq_iff_eq] at *; exact h.symm

theorem sameText_trans {a b c : List Nat} (h : sameText a b) (k : sameText b c) : sameText a c := by
  rw [← caseEq_iff] at *; unfold caseEq at *; rw [beq_iff_eq] at *; exact h.trans k

theorem sameText_append {a b c d : List Nat} (h : sameText a b) (k : sameText c d) : sameText (a ++ c) (b ++ d) := by
  rw [← caseEq_iff] at *; unfold caseEq at *; rw [beq_iff_eq] at *; simp [h, k]

theorem casePrefix_append (p t u : List Nat) (h : sameText u p) : casePrefix (u ++ t) p = true := by
  unfold casePrefix
  have hl : u.length = p.length := by
    rw [← caseEq_iff] at h; unfold caseEq at h; rw [beq_iff_eq] at h
    simpa using congrArg List.length h
  rw [← hl, List.take_left]
  exact (caseEq_iff _ _).2 h

theorem sameText_split {p t s : List Nat} (h : sameText s (p ++ t)) :
    ∃ u v, s = u ++ v ∧ sameText u p ∧ sameText v t ∧ u.length = p.length := by
  induction p generalizing s with
  | nil => exact ⟨[], s, rfl, trivial, h, rfl⟩
  | cons c p ih =>
    cases s with
    | nil => simp [sameText] at h
    | cons x xs =>
      obtain ⟨u, v, e, h1, h2, h3⟩ := ih h.2
      exact ⟨x :: u, v, by rw [e]; rfl, ⟨h.1, h1⟩, h2, by simp [h3]⟩

theorem codes_SIG : codes "SIG" = SIG := by decide

/-- what the proofs need of the signal names -/
structure GoodSig (N : Names) : Prop where
  pre : ∀ i, 1 ≤ i → i ≤ N.rtmax → ∃ tail, signame N i = some (SIG ++ tail) ∧ tail ≠ [] ∧
    (∀ c l, tail = c :: l → ¬ (48 ≤ c ∧ c ≤ 57)) ∧ casePrefix tail SIG = false
  none : ∀ i : Nat, N.rtmax < i → signame N i = none
  small : N.rtmax ≤ 255
  inj : ∀ i j a b, 1 ≤ i → 1 ≤ j → i ≤ N.rtmax → j ≤ N.rtmax → signame N (i : Nat) = some (SIG ++ a) →
    signame N (j : Nat) = some (SIG ++ b) → sameText a b → i = j

def preB (N : Names) (i : Nat) : Bool :=
  match signame N i with
  | some name => name.take 3 == SIG && !(name.drop 3).isEmpty &&
      (match name.drop 3 with | c :: _ => !(decide (48 ≤ c) && decide (c ≤ 57)) | [] => true) &&
      !casePrefix (name.drop 3) SIG
  | none => false

def diffB (N : Names) (i j : Nat) : Bool :=
  match signame N i, signame N j with
  | some a, some b => !caseEq (a.drop 3) (b.drop 3)
  | _, _ => true

def goodSigB (N : Names) : Bool :=
  (List.range' 1 N.rtmax).all (preB N) && decide (N.rtmax ≤ 255) && decide (N.sigs.length ≤ N.rtmax + 1) &&
  decide ((List.range' 1 N.rtmax).Pairwise fun i j => diffB N i j = true)

theorem diffB_symm (N : Names) (i j : Nat) : diffB N i j = diffB N j i := by
  unfold diffB
  cases signame N i <;> cases signame N j <;> simp [caseEq, eq_comm, Bool.beq_comm]

theorem goodSig_of (N : Names) (h : goodSigB N = true) : GoodSig N := by
  simp only [goodSigB, Bool.and_eq_true, decide_eq_true_eq] at h
  obtain ⟨⟨⟨h1, h2⟩, h3⟩, h4⟩ := h
  refine ⟨?_, ?_, h2, ?_⟩
  · intro i hi hm
    have := List.all_eq_true.1 h1 i (by simp [List.mem_range']; exact ⟨i - 1, by omega, by omega⟩)
    unfold preB at this
    split at this
    · rename_i name hn
      simp only [Bool.and_eq_true, beq_iff_eq, Bool.not_eq_true'] at this
      obtain ⟨⟨⟨a1, a2⟩, a3⟩, a4⟩ := this
      refine ⟨name.drop 3, ?_, ?_, ?_, a4⟩
      · rw [hn, ← a1, List.take_append_drop]
      · intro e; rw [e] at a2; simp at a2
      · intro c l e; rw [e] at a3; simp at a3; omega
    · cases this
  · intro i hi
    unfold signame
    simp only [Int.toNat_natCast]
    rw [if_neg (by omega : ¬ i < N.sigs.length), if_neg (by omega : ¬ (i ≥ N.rtmin ∧ i ≤ N.rtmax))]
    simp
  · intro i j a b hi hj hi' hj' ha hb hs
    by_contra hne
    have key : ∀ i j a b : _, 1 ≤ i → i < j → j ≤ N.rtmax → signame N (i : Nat) = some (SIG ++ a) →
        signame N (j : Nat) = some (SIG ++ b) → sameText a b → False := by
      intro i j a b hi hij hj ha hb hs
      have := List.pairwise_iff_getElem.1 h4 (i - 1) (j - 1) (by simp; omega) (by simp; omega) (by omega)
      simp only [List.getElem_range'] at this
      rw [show 1 + 1 * (i - 1) = i by omega, show 1 + 1 * (j - 1) = j by omega] at this
      unfold diffB at this
      rw [ha, hb] at this
      simp only [Bool.not_eq_true', SIG, List.cons_append, List.nil_append, List.drop_succ_cons, List.drop_zero] at this
      rw [(caseEq_iff _ _).2 hs] at this
      cases this
    rcases Nat.lt_or_gt_of_ne hne with h | h
    · exact key i j a b hi h hj' ha hb hs
    · exact key j i b a hj h hi' hb ha (sameText_symm hs)

theorem goodSig_all : ∀ N ∈ allNames, goodSigB N = true := by decide +kernel

theorem sigMatches_iff {N : Names} (g : GoodSig N) (s : List Nat) (i : Nat) (hi : 1 ≤ i) :
    sigMatches N s i = true ↔ ∃ tail, signame N i = some (SIG ++ tail) ∧ sameText s tail := by
  unfold sigMatches
  by_cases hm : i ≤ N.rtmax
  · obtain ⟨tail, hn, _⟩ := g.pre i hi hm
    rw [hn]
    simp only [codes_SIG, Option.some.injEq, List.append_cancel_left_eq]
    rw [casePrefix_append SIG tail SIG (sameText_refl _)]
    simp only [SIG, List.cons_append, List.nil_append, List.drop_succ_cons, List.drop_zero, Bool.true_and, caseEq_iff]
    constructor
    · intro h; exact ⟨tail, rfl, sameText_symm h⟩
    · rintro ⟨t, rfl, h⟩; exact sameText_symm h
  · rw [g.none i (by omega)]; simp

theorem find_sig_iff {N : Names} (g : GoodSig N) (s : List Nat) (i : Nat) :
    (List.range' 1 255).find? (sigMatches N s) = some i ↔
      1 ≤ i ∧ ∃ tail, signame N i = some (SIG ++ tail) ∧ sameText s tail := by
  constructor
  · intro h
    have hm := List.mem_of_find?_eq_some h
    have hp := List.find?_some h
    have hi : 1 ≤ i := by simp [List.mem_range'] at hm; omega
    exact ⟨hi, (sigMatches_iff g s i hi).1 hp⟩
  · rintro ⟨hi, tail, hn, hs⟩
    have hle : i ≤ N.rtmax := by
      by_contra hc
      rw [g.none i (by omega)] at hn; cases hn
    have hsm := g.small
    cases hf : (List.range' 1 255).find? (sigMatches N s) with
    | none =>
      have := List.find?_eq_none.1 hf i (by simp [List.mem_range']; exact ⟨i - 1, by omega, by omega⟩)
      exact absurd ((sigMatches_iff g s i hi).2 ⟨tail, hn, hs⟩) this
    | some j =>
      have hm := List.mem_of_find?_eq_some hf
      have hj : 1 ≤ j := by simp [List.mem_range'] at hm; omega
      obtain ⟨tail', hn', hs'⟩ := (sigMatches_iff g s j hj).1 (List.find?_some hf)
      have hle' : j ≤ N.rtmax := by
        by_contra hc
        rw [g.none j (by omega)] at hn'; cases hn'
      rw [g.inj j i tail' tail hj hi hle' hle hn' hn (sameText_trans (sameText_symm hs') hs)]

theorem decimal_eq_decVal (l : List Nat) : StringToUint.decimal l = decVal l := by
  unfold StringToUint.decimal decVal
  congr 1; funext a c; omega

theorem upto_iff (s : List Nat) (m : Nat) (v : Int) :
    stringToUintUpto s m = some v ↔ ∃ n : Nat, v = n ∧ Accepts s m [] n [] := by
  unfold stringToUintUpto
  rw [Option.map_eq_some_iff]
  constructor
  · rintro ⟨⟨w, r⟩, h, rfl⟩
    obtain ⟨n, h1, h2⟩ := (stringToUintEx_iff s m none w r).1 h
    cases r with
    | nil => exact ⟨n, h1, h2⟩
    | cons c t =>
      obtain ⟨ws, sg, ds, _, _, _, _, _, h5, _⟩ := h2
      have := (h5 c t rfl).2
      simp at this
  · rintro ⟨n, rfl, h⟩
    exact ⟨(n, []), (stringToUintEx_iff s m none n []).2 ⟨n, rfl, h⟩, rfl⟩

theorem accepts_digit_start {c : Nat} {l : List Nat} {m n : Nat} (hc : 48 ≤ c ∧ c ≤ 57) :
    Accepts (c :: l) m [] n [] ↔ Digits (c :: l) ∧ decVal (c :: l) = n ∧ n ≤ m ∧ n ≤ 2 ^ 63 - 1 := by
  constructor
  · rintro ⟨ws, sg, ds, e, hw, hs, h0, hd, _, hv, hm, hl, _⟩
    have hws : ws = [] := by
      cases ws with
      | nil => rfl
      | cons w ws =>
        simp at e
        have := (StringToUint.isSpace_iff w).1 (hw w (by simp))
        omega
    have hsg : sg = [] := by
      rcases hs with h | h | h
      · exact h
      · subst hws; rw [h] at e; simp at e; omega
      · subst hws; rw [h] at e; simp at e; omega
    subst hws hsg
    simp at e
    rw [e]
    refine ⟨⟨h0, ?_⟩, by rw [← decimal_eq_decVal, hv], hm, hl⟩
    intro c hc
    exact (StringToUint.isDigit_iff c).1 (hd c hc)
  · rintro ⟨⟨_, hd⟩, hv, hm, hl⟩
    exact ⟨[], [], c :: l, by simp, by simp, by simp, by simp,
      fun x hx => (StringToUint.isDigit_iff x).2 (hd x hx), by simp, by rw [decimal_eq_decVal, hv], hm, hl, by simp⟩

theorem sameText_nil {t : List Nat} (h : sameText t []) : t = [] := by
  cases t with
  | nil => rfl
  | cons a l => simp [sameText] at h

/-- the letters of "SIG" and what is not a digit, up to case -/
theorem head_not_digit {t s : List Nat} {c : Nat} {l : List Nat} (h : sameText (c :: l) s) (e : s = t)
    (hd : ∀ x y, t = x :: y → ¬ (48 ≤ x ∧ x ≤ 57)) : ¬ (48 ≤ c ∧ c ≤ 57) := by
  subst e
  cases s with
  | nil => simp [sameText] at h
  | cons x y =>
    have h1 := h.1
    have h2 := hd x y rfl
    unfold sameLetter at h1
    omega

theorem casePrefix_congr {a b : List Nat} (p : List Nat) (h : sameText a b) : casePrefix a p = casePrefix b p := by
  rw [← caseEq_iff] at h
  unfold caseEq at h
  rw [beq_iff_eq] at h
  unfold casePrefix caseEq
  rw [List.map_take, List.map_take, h]

theorem casePrefix_SIG {s : List Nat} (h : casePrefix s SIG = true) : ∃ u v, s = u ++ v ∧ sameText u SIG ∧ s.drop 3 = v := by
  refine ⟨s.take 3, s.drop 3, (List.take_append_drop 3 s).symm, ?_, rfl⟩
  exact (caseEq_iff _ _).1 h

/-! ### C68, signals -/

/-- **C68.** For every architecture's table, a text given for a signal is accepted as signal `i` exactly when it is the
number `i` in decimal, or the name that the trace shows for `i`, in any letter case, with or without "SIG". -/
theorem signal_text (N : Names) (hN : N ∈ allNames) (t : List Nat) (i : Int) :
    sigstrToUint N t = some i ↔ ∃ n : Nat, i = n ∧ SignalText N t n := by
  have g := goodSig_of N (goodSig_all N hN)
  cases t with
  | nil =>
    simp only [sigstrToUint, Option.map_eq_some_iff, find_sig_iff g]
    constructor
    · rintro ⟨n, ⟨h1, tail, h2, h3⟩, rfl⟩
      exact ⟨n, rfl, Or.inr ⟨h1, tail, h2, Or.inr h3⟩⟩
    · rintro ⟨n, rfl, ⟨⟨h, _⟩, _⟩ | ⟨h1, tail, h2, h3 | h3⟩⟩
      · exact absurd rfl h
      · simp [SIG, sameText] at h3
      · exact ⟨n, ⟨h1, tail, h2, h3⟩, rfl⟩
  | cons c l =>
    simp only [sigstrToUint]
    by_cases hc : 48 ≤ c ∧ c ≤ 57
    · rw [if_pos hc, upto_iff]
      constructor
      · rintro ⟨n, rfl, h⟩
        obtain ⟨h1, h2, h3, _⟩ := (accepts_digit_start hc).1 h
        exact ⟨n, rfl, Or.inl ⟨h1, h2, h3⟩⟩
      · rintro ⟨n, rfl, ⟨h1, h2, h3⟩ | ⟨h1, tail, h2, h3⟩⟩
        · exact ⟨n, rfl, (accepts_digit_start hc).2 ⟨h1, h2, h3, by omega⟩⟩
        · exfalso
          have hle : n ≤ N.rtmax := by
            by_contra hx
            rw [g.none n (by omega)] at h2; cases h2
          obtain ⟨tail', e1, _, e3, _⟩ := g.pre n h1 hle
          rw [h2] at e1; simp at e1; subst e1
          rcases h3 with h3 | h3
          · exact head_not_digit h3 rfl (by intro x y e; simp [SIG] at e; omega) hc
          · exact head_not_digit h3 rfl e3 hc
    · rw [if_neg hc]
      simp only [codes_SIG, Option.map_eq_some_iff, find_sig_iff g]
      constructor
      · rintro ⟨n, ⟨h1, tail, h2, h3⟩, rfl⟩
        refine ⟨n, rfl, Or.inr ⟨h1, tail, h2, ?_⟩⟩
        split at h3
        · rename_i hp
          obtain ⟨u, v, e1, e2, e3⟩ := casePrefix_SIG hp
          left
          rw [e3] at h3
          rw [e1]
          exact sameText_append e2 h3
        · exact Or.inr h3
      · rintro ⟨n, rfl, ⟨⟨_, h⟩, _⟩ | ⟨h1, tail, h2, h3⟩⟩
        · exact absurd (h c (by simp)) hc
        · refine ⟨n, ⟨h1, tail, h2, ?_⟩, rfl⟩
          have hle : n ≤ N.rtmax := by
            by_contra hx
            rw [g.none n (by omega)] at h2; cases h2
          obtain ⟨tail', e1, _, _, e4⟩ := g.pre n h1 hle
          rw [h2] at e1; simp at e1; subst e1
          rcases h3 with h3 | h3
          · obtain ⟨u, v, e, hu, hv, hl⟩ := sameText_split h3
            rw [e, if_pos (casePrefix_append SIG v u hu)]
            have : (u ++ v).drop 3 = v := by
              have h3' : u.length = 3 := hl
              rw [← h3', List.drop_left]
            rw [this]; exact hv
          · rw [if_neg (by rw [casePrefix_congr SIG h3, e4]; simp)]
            exact h3

/-- every signal number up to the architecture's last real-time signal has a name, and that name reads back -/
theorem signal_reads_back (N : Names) (hN : N ∈ allNames) (i : Nat) (h1 : 1 ≤ i) (h2 : i ≤ N.rtmax) :
    ∃ tail, signame N i = some (SIG ++ tail) ∧
      ∀ t, sameText t (SIG ++ tail) ∨ sameText t tail → sigstrToUint N t = some (i : Int) := by
  have g := goodSig_of N (goodSig_all N hN)
  obtain ⟨tail, hn, _⟩ := g.pre i h1 h2
  exact ⟨tail, hn, fun t ht => (signal_text N hN t i).2 ⟨i, rfl, Or.inr ⟨h1, tail, hn, ht⟩⟩⟩

/-- the signal number injected by `signal=` is one of 1 … NSIG, and its text stands for it -/
theorem signal_value (N : Names) (hN : N ∈ allNames) (nb : Nat) (t : List Nat) (i : Int) :
    signalValue N nb t = some i ↔ ∃ n : Nat, i = n ∧ SignalText N t n ∧ 1 ≤ n ∧ n ≤ nb * 8 := by
  unfold signalValue
  constructor
  · intro h
    split at h
    · cases h
    · rename_i v hv
      split at h
      · cases h
      · injection h with h; subst h
        obtain ⟨n, rfl, hn⟩ := (signal_text N hN t v).1 hv
        exact ⟨n, rfl, hn, by omega, by omega⟩
  · rintro ⟨n, rfl, hn, h1, h2⟩
    rw [(signal_text N hN t n).2 ⟨n, rfl, hn⟩]
    simp only
    rw [if_neg (by omega)]

/-! ### C68, errors -/

structure GoodErr (N : Names) : Prop where
  pre : ∀ i e, errnoent N i = some e → 1 ≤ i ∧ i < N.nerrnos ∧ ∃ l, e = 69 :: l
  inj : ∀ i j a b, errnoent N i = some a → errnoent N j = some b → sameText a b → i = j

def goodErrB (N : Names) : Bool :=
  N.errs.all (fun e => decide (1 ≤ e.1) && decide (e.1 < N.nerrnos) && e.2.head? == some 69) &&
  decide (N.errs.Pairwise fun a b => caseEq a.2 b.2 = false)

theorem errnoent_mem {N : Names} {i : Nat} {e : List Nat} (h : errnoent N i = some e) : (i, e) ∈ N.errs := by
  unfold errnoent at h
  rw [Option.map_eq_some_iff] at h
  obtain ⟨⟨j, e'⟩, h1, h2⟩ := h
  have := List.find?_some h1
  simp at this h2
  subst this h2
  exact List.mem_of_find?_eq_some h1

theorem pairwise_eq {l : List (Nat × List Nat)} (h : l.Pairwise fun a b => caseEq a.2 b.2 = false)
    {x y : Nat × List Nat} (hx : x ∈ l) (hy : y ∈ l) (hs : caseEq x.2 y.2 = true) : x = y := by
  induction l with
  | nil => cases hx
  | cons a l ih =>
    rw [List.pairwise_cons] at h
    rcases List.mem_cons.1 hx with hx | hx <;> rcases List.mem_cons.1 hy with hy | hy
    · rw [hx, hy]
    · rw [hx, h.1 y hy] at hs; cases hs
    · have := h.1 x hx
      rw [← hy] at this
      rw [(caseEq_iff _ _).2 (sameText_symm ((caseEq_iff _ _).1 hs))] at this; cases this
    · exact ih h.2 hx hy

theorem goodErr_of (N : Names) (h : goodErrB N = true) : GoodErr N := by
  simp only [goodErrB, Bool.and_eq_true, decide_eq_true_eq] at h
  obtain ⟨h1, h2⟩ := h
  refine ⟨?_, ?_⟩
  · intro i e he
    have := List.all_eq_true.1 h1 _ (errnoent_mem he)
    simp only [Bool.and_eq_true, decide_eq_true_eq, beq_iff_eq] at this
    refine ⟨this.1.1, this.1.2, ?_⟩
    cases e with
    | nil => simp at this
    | cons x l => simp at this; exact ⟨l, by rw [this.2]⟩
  · intro i j a b ha hb hs
    have := pairwise_eq h2 (errnoent_mem ha) (errnoent_mem hb) ((caseEq_iff _ _).2 hs)
    simpa using congrArg Prod.fst this

theorem goodErr_all : ∀ N ∈ allNames, goodErrB N = true := by decide +kernel

theorem findErrno_iff {N : Names} (g : GoodErr N) (t : List Nat) (i : Nat) :
    findErrnoByName N t = some i ↔ ∃ e, errName N i = some e ∧ sameText t e := by
  have hp : ∀ j : Nat, errMatches N t j = true ↔ ∃ e, errnoent N j = some e ∧ sameText t e := by
    intro j
    unfold errMatches
    cases errnoent N j with
    | none => simp
    | some e => simp [caseEq_iff]
  unfold findErrnoByName errName
  constructor
  · intro h
    obtain ⟨e, h1, h2⟩ := (hp i).1 (List.find?_some h)
    exact ⟨e, by rw [if_pos (g.pre i e h1).2.1, h1], h2⟩
  · rintro ⟨e, h1, h2⟩
    split at h1
    · rename_i hlt
      have hpre := g.pre i e h1
      cases hf : (List.range' 1 (N.nerrnos - 1)).find? (errMatches N t) with
      | none =>
        have := List.find?_eq_none.1 hf i (by simp [List.mem_range']; exact ⟨i - 1, by omega, by omega⟩)
        exact absurd ((hp i).2 ⟨e, h1, h2⟩) this
      | some j =>
        obtain ⟨e', k1, k2⟩ := (hp j).1 (List.find?_some hf)
        rw [g.inj j i e' e k1 h1 (sameText_trans (sameText_symm k2) h2)]
    · cases h1

/-- a text that is a number is not an error name -/
theorem not_both {N : Names} (g : GoodErr N) {t : List Nat} {v w : Nat} {e : List Nat} (h : Accepts t 4095 [] v [])
    (he : errName N w = some e) (hs : sameText t e) : False := by
  unfold errName at he
  split at he
  · obtain ⟨_, _, l, rfl⟩ := g.pre w e he
    obtain ⟨ws, sg, ds, e1, hw, hsg, h0, hd, _⟩ := h
    cases t with
    | nil => simp [sameText] at hs
    | cons c t =>
      have hc := hs.1
      unfold sameLetter at hc
      have : c = 69 ∨ c = 101 := by omega
      cases ws with
      | cons w ws =>
        simp at e1
        have := (StringToUint.isSpace_iff w).1 (hw w (by simp))
        omega
      | nil =>
        rcases hsg with rfl | rfl | rfl
        · cases ds with
          | nil => exact h0 rfl
          | cons d ds =>
            simp at e1
            have := (StringToUint.isDigit_iff d).1 (hd d (by simp))
            omega
        · simp at e1; omega
        · simp at e1; omega
  · cases he

/-- **C68.** For every architecture's table, the text after `error=` is accepted as error `v` exactly when it stands for
`v` and `v` is not zero. -/
theorem error_text (N : Names) (hN : N ∈ allNames) (t : List Nat) (v : Int) :
    errorValue N t = some v ↔ ∃ n : Nat, v = n ∧ 1 ≤ n ∧ ErrorText N t n := by
  have g := goodErr_of N (goodErr_all N hN)
  unfold errorValue
  cases hu : stringToUintUpto t 4095 with
  | some w =>
    obtain ⟨m, rfl, hm⟩ := (upto_iff t 4095 w).1 hu
    simp only
    constructor
    · intro h
      split at h
      · cases h
      · injection h with h; subst h
        exact ⟨m, rfl, by omega, Or.inl hm⟩
    · rintro ⟨n, rfl, h1, h2 | ⟨e, he, hs⟩⟩
      · have := (upto_iff t 4095 n).2 ⟨n, rfl, h2⟩
        rw [hu] at this; injection this with this
        rw [this, if_neg (by omega)]
      · exact (not_both g hm he hs).elim
  | none =>
    simp only
    cases hf : findErrnoByName N t with
    | some i =>
      obtain ⟨e, he, hs⟩ := (findErrno_iff g t i).1 hf
      have hi : 1 ≤ i := by
        unfold errName at he
        split at he
        · exact (g.pre i e he).1
        · cases he
      simp only
      rw [if_neg (by omega)]
      constructor
      · intro h; injection h with h; exact ⟨i, h.symm, hi, Or.inr ⟨e, he, hs⟩⟩
      · rintro ⟨n, rfl, h1, h2 | h2⟩
        · exact (not_both g h2 he hs).elim
        · have := (findErrno_iff g t n).2 h2
          rw [hf] at this; injection this with this; rw [this]
    | none =>
      simp only
      constructor
      · intro h; simp at h
      · rintro ⟨n, rfl, h1, h2 | h2⟩
        · rw [(upto_iff t 4095 n).2 ⟨n, rfl, h2⟩] at hu; cases hu
        · rw [(findErrno_iff g t n).2 h2] at hf; cases hf

/-- an error shown by name in the trace can be injected by that name, in any letter case -/
theorem error_reads_back (N : Names) (hN : N ∈ allNames) (n : Nat) (e t : List Nat) (he : errName N n = some e)
    (hs : sameText t e) : errorValue N t = some (n : Int) := by
  have g := goodErr_of N (goodErr_all N hN)
  refine (error_text N hN t n).2 ⟨n, rfl, ?_, Or.inr ⟨e, he, hs⟩⟩
  unfold errName at he
  split at he
  · exact (g.pre n e he).1
  · cases he

/-! ### Concrete cases -/

example : signame generic 9 = some (codes "SIGKILL") := by decide
example : sigstrToUint generic (codes "kill") = some 9 := by decide +kernel
example : sigstrToUint mips (codes "SigUsr1") = some 16 := by decide +kernel
example : sigstrToUint generic (codes "RT_2") = some 34 := by decide +kernel
example : sigstrToUint generic (codes "SIGSIGKILL") = none := by decide +kernel
example : errName generic 2 = some (codes "ENOENT") := by decide +kernel
example : errorValue generic (codes "enoent") = some 2 := by decide +kernel
example : errorValue mips (codes "EDQUOT") = some 1133 := by decide +kernel
example : errorValue generic (codes "0") = none := by decide +kernel
example : ErrorText generic (codes "eNoEnt") 2 := Or.inr ⟨codes "ENOENT", by decide +kernel, by rw [← caseEq_iff]; decide⟩

end Strace.Cli
