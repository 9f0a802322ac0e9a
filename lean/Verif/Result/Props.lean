import Verif.Result.Model
import Verif.Cli.InjectProps
import Verif.Time.Props
/-!
# C74: the outcome shown is the outcome.  C75: the elapsed time shown
-/
namespace Strace.Result

open Strace.Filter (codes)
open Strace.Cli

/-! ### Specification -/

/-- what a reader learns from the text after a call -/
inductive Outcome
  /-- it returned `v` -/
  | value (v : Int)
  /-- it failed with error number `e` -/
  | failed (e : Nat)
  /-- it was interrupted and the kernel may restart it; `e` says how -/
  | restarts (e : Nat)
  /-- no result -/
  | nothing
deriving Repr, DecidableEq

/-- a number in C notation below 2^64, possibly with a minus sign -/
def NumText (t : List Nat) (v : Int) : Prop :=
  (∃ m : Nat, Magnitude false t m ∧ m < 2 ^ 64 ∧ v = m) ∨
  (∃ (u : List Nat) (m : Nat), t = 45 :: u ∧ Magnitude false u m ∧ m < 2 ^ 64 ∧ v = -m)

/-- the word ends here: end of line, blank or "<" -/
def WordEnd (t : List Nat) : Prop := t = [] ∨ (∃ l, t = 32 :: l) ∨ ∃ l, t = 60 :: l

/-- an error is named next: " E…" or " (errno …" -/
def NamesError (t : List Nat) : Prop := (∃ l, t = codes " E" ++ l) ∨ ∃ l, t = codes " (errno " ++ l

/-- the kernel's codes for interrupted calls -/
def restartCodes : List (String × Nat) :=
  [("ERESTARTSYS", 512), ("ERESTARTNOINTR", 513), ("ERESTARTNOHAND", 514), ("ERESTART_RESTARTBLOCK", 516)]

/-- what a text says; the errors have the names of table `N` -/
inductive Says (N : Names) : List Nat → Outcome → Prop
  | value {n t : List Nat} {v : Int} : NumText n v → WordEnd t → ¬ NamesError t → Says N (codes "= " ++ n ++ t) (.value v)
  | failed {nm t : List Nat} {e : Nat} : errName N e = some nm → Says N (codes "= -1 " ++ nm ++ codes " (" ++ t) (.failed e)
  | failedNum {d t : List Nat} {e : Nat} : Numeral 10 d e → Says N (codes "= -1 (errno " ++ d ++ codes ")" ++ t) (.failed e)
  | restarts {s : String} {e : Nat} {t : List Nat} : (s, e) ∈ restartCodes →
      Says N (codes "= ? " ++ codes s ++ codes " (" ++ t) (.restarts e)
  | nothing {t : List Nat} : WordEnd t → ¬ NamesError t → Says N (codes "= ?" ++ t) .nothing

/-! ### Lemmas: numbers -/

theorem digitB_digit {b d : Nat} (hb : b ≤ 16) (h : d < b) : DigitB b (digit d) d := by
  unfold DigitB digit
  split <;> omega

theorem numeral_radix (b n : Nat) (h2 : 2 ≤ b) (hb : b ≤ 16) : Numeral b (radix b n) n := by
  induction n using Nat.strongRecOn with
  | ind n ih =>
    unfold radix
    split
    · rename_i h; exact .one (digitB_digit hb (by omega))
    · rename_i h
      have hlt : n / b < n := Nat.div_lt_self (by omega) (by omega)
      have := Numeral.snoc (ih _ hlt) (digitB_digit hb (Nat.mod_lt n (by omega)))
      rwa [Nat.mul_comm, Nat.div_add_mod] at this

theorem radix_head (b n : Nat) (h2 : 2 ≤ b) (hb : b ≤ 16) (hn : n ≠ 0) : (radix b n).head? ≠ some 48 := by
  induction n using Nat.strongRecOn with
  | ind n ih =>
    unfold radix
    split
    · rename_i h
      simp only [List.head?_cons, ne_eq, Option.some.injEq]
      unfold digit
      split <;> omega
    · rename_i h
      have hlt : n / b < n := Nat.div_lt_self (by omega) (by omega)
      have h0 : n / b ≠ 0 := by
        have : 1 ≤ n / b := (Nat.le_div_iff_mul_le (by omega)).2 (by omega)
        omega
      rw [List.head?_append]
      have := ih _ hlt h0
      cases hr : (radix b (n / b)).head? with
      | none =>
        rw [List.head?_eq_none_iff] at hr
        exact absurd hr (numeral_ne_nil (by omega) (numeral_radix b _ h2 hb))
      | some c => rw [hr] at this; simpa using this

theorem radix_zero (b : Nat) (h2 : 2 ≤ b) : radix b 0 = [48] := by
  unfold radix
  rw [dif_pos (by omega)]
  rfl

theorem magnitude_dec (n : Nat) : Magnitude false (radix 10 n) n := by
  by_cases h : n = 0
  · subst h
    rw [radix_zero 10 (by omega)]
    exact Or.inr (Or.inl ⟨.one (by unfold DigitB; omega), rfl⟩)
  · exact Or.inl ⟨numeral_radix 10 n (by omega) (by omega), radix_head 10 n (by omega) (by omega) h⟩

theorem numText_valU (n : Nat) (h : n < 2 ^ 64) : NumText (valU n) n := Or.inl ⟨n, magnitude_dec n, h, rfl⟩

theorem numText_valD (v : Int) (h1 : -2 ^ 63 ≤ v) (h2 : v < 2 ^ 63) : NumText (valD v) v := by
  unfold valD
  split
  · exact Or.inr ⟨_, v.natAbs, rfl, magnitude_dec _, by omega, by omega⟩
  · exact Or.inl ⟨v.natAbs, magnitude_dec _, by omega, by omega⟩

theorem numText_valX (n : Nat) (h : n < 2 ^ 64) : NumText (valX n) n := by
  refine Or.inl ⟨n, ?_, h, rfl⟩
  unfold valX
  split
  · rename_i h0; subst h0
    exact Or.inr (Or.inl ⟨.one (by unfold DigitB; omega), rfl⟩)
  · exact Or.inr (Or.inr (Or.inl ⟨120, radix 16 n, rfl, Or.inl rfl, numeral_radix 16 n (by omega) (by omega)⟩))

theorem numeral_zero {b : Nat} (hb : 2 ≤ b) {l : List Nat} {m : Nat} (h : Numeral b l m) : Numeral b (48 :: l) m := by
  induction h with
  | @one c x h =>
    have := Numeral.snoc (.one (b := b) (c := 48) (x := 0) (by unfold DigitB; omega)) h
    simpa using this
  | snoc _ hd ih => exact .snoc ih hd

theorem numeral_zeros {b : Nat} (hb : 2 ≤ b) (k : Nat) {l : List Nat} {m : Nat} (h : Numeral b l m) :
    Numeral b (List.replicate k 48 ++ l) m := by
  induction k with
  | zero => simpa
  | succ k ih => rw [List.replicate_succ, List.cons_append]; exact numeral_zero hb ih

theorem numText_valO (n : Nat) (h : n < 2 ^ 64) : NumText (valO n) n := by
  refine Or.inl ⟨n, Or.inr (Or.inl ⟨?_, ?_⟩), h, rfl⟩
  · unfold valO
    simp only
    refine numeral_zeros (by omega) _ ?_
    split
    · rename_i h0; subst h0; exact .one (by unfold DigitB; omega)
    · exact numeral_zero (by omega) (numeral_radix 8 n (by omega) (by omega))
  · unfold valO
    simp only
    split
    · rfl
    · cases 3 - (48 :: radix 8 n).length <;> rfl

/-! ### Lemmas: words -/

theorem split_word (P : Nat → Prop) (a b x y : List Nat) (ha : ∀ c ∈ a, ¬ P c) (hb : ∀ c ∈ b, ¬ P c)
    (hx : x = [] ∨ ∃ c l, x = c :: l ∧ P c) (hy : y = [] ∨ ∃ c l, y = c :: l ∧ P c) (h : a ++ x = b ++ y) : a = b ∧ x = y := by
  induction a generalizing b with
  | nil =>
    cases b with
    | nil => exact ⟨rfl, h⟩
    | cons d b =>
      rcases hx with rfl | ⟨c, l, rfl, hc⟩
      · simp at h
      · simp only [List.nil_append, List.cons_append, List.cons.injEq] at h
        rw [h.1] at hc
        exact absurd hc (hb d (by simp))
  | cons c a ih =>
    cases b with
    | nil =>
      rcases hy with rfl | ⟨d, l, rfl, hd⟩
      · simp at h
      · simp only [List.nil_append, List.cons_append, List.cons.injEq] at h
        rw [← h.1] at hd
        exact absurd hd (ha c (by simp))
    | cons d b =>
      simp only [List.cons_append, List.cons.injEq] at h
      obtain ⟨e1, e2⟩ := ih b (fun c hc => ha c (by simp [hc])) (fun c hc => hb c (by simp [hc])) h.2
      exact ⟨by rw [h.1, e1], e2⟩

theorem numeral_chars {b : Nat} (hb : b ≤ 36) {l : List Nat} {m : Nat} (h : Numeral b l m) : ∀ c ∈ l, 48 ≤ c ∧ c ≠ 60 ∧ c ≠ 61 := by
  intro c hc
  have := numeral_digit hb h hc
  refine ⟨?_, ?_, ?_⟩
  · by_contra hlt
    unfold digitVal at this
    rw [if_neg (by omega), if_neg (by omega), if_neg (by omega)] at this
    omega
  · rintro rfl; simp [digitVal] at this; omega
  · rintro rfl; simp [digitVal] at this; omega

theorem magnitude_chars {l : List Nat} {m : Nat} (h : Magnitude false l m) : ∀ c ∈ l, 48 ≤ c ∧ c ≠ 60 ∧ c ≠ 61 := by
  rcases h with ⟨h, _⟩ | ⟨h, _⟩ | ⟨x, l', rfl, hx, h⟩ | ⟨h, _⟩
  · exact numeral_chars (by omega) h
  · exact numeral_chars (by omega) h
  · intro c hc
    simp only [List.mem_cons] at hc
    rcases hc with rfl | rfl | hc
    · omega
    · omega
    · exact numeral_chars (by omega) h c hc
  · cases h

theorem numText_chars {n : List Nat} {v : Int} (h : NumText n v) : ∀ c ∈ n, c ≠ 32 ∧ c ≠ 60 := by
  rcases h with ⟨m, h, _⟩ | ⟨u, m, rfl, h, _⟩
  · intro c hc; have := magnitude_chars h c hc; omega
  · intro c hc
    rcases List.mem_cons.1 hc with rfl | hc
    · omega
    · have := magnitude_chars h c hc; omega

theorem numText_head {n : List Nat} {v : Int} (h : NumText n v) : ∃ c l, n = c :: l ∧ c ≠ 63 := by
  rcases h with ⟨m, h, _⟩ | ⟨u, m, rfl, _⟩
  · obtain ⟨c, l, rfl, h1, h2⟩ := magnitude_head h
    exact ⟨c, l, rfl, by omega⟩
  · exact ⟨45, u, rfl, by omega⟩

theorem magnitude_unique {t : List Nat} {m m' : Nat} (h : Magnitude false t m) (h' : Magnitude false t m') : m = m' := by
  have a := (body_iff false t m).2 h
  have b := (body_iff false t m').2 h'
  rw [a] at b
  injection b with b; injection b

theorem numeral_unique {b : Nat} (hb : b ≤ 36) {t : List Nat} {m m' : Nat} (h : Numeral b t m) (h' : Numeral b t m') : m = m' := by
  have a := (convertB_iff b hb t m).2 h
  have c := (convertB_iff b hb t m').2 h'
  rw [a] at c
  injection c with c; injection c

theorem numText_unique {t : List Nat} {v v' : Int} (h : NumText t v) (h' : NumText t v') : v = v' := by
  rcases h with ⟨m, h, _, rfl⟩ | ⟨u, m, rfl, h, _, rfl⟩ <;> rcases h' with ⟨m', h', _, rfl⟩ | ⟨u', m', e, h', _, rfl⟩
  · rw [magnitude_unique h h']
  · subst e; obtain ⟨c, l, e, h1, h2⟩ := magnitude_head h; injection e with e; omega
  · obtain ⟨c, l, e, h1, h2⟩ := magnitude_head h'; injection e with e; omega
  · injection e with _ e; subst e; rw [magnitude_unique h h']

theorem wordEnd_split {t : List Nat} (h : WordEnd t) : t = [] ∨ ∃ c l, t = c :: l ∧ (c = 32 ∨ c = 60) := by
  rcases h with rfl | ⟨l, rfl⟩ | ⟨l, rfl⟩
  · exact Or.inl rfl
  · exact Or.inr ⟨32, l, rfl, Or.inl rfl⟩
  · exact Or.inr ⟨60, l, rfl, Or.inr rfl⟩

/-! ### Lemmas: error names -/

/-- no error name holds a blank -/
theorem names_noBlank : ∀ N ∈ Cli.allNames, (N.errs.all fun e => !e.2.contains 32) = true := by decide +kernel

theorem errName_good {N : Names} (hN : N ∈ Cli.allNames) {e : Nat} {nm : List Nat} (h : errName N e = some nm) :
    32 ∉ nm ∧ ∃ l, nm = 69 :: l := by
  unfold errName at h
  split at h
  · have hm := errnoent_mem h
    have := List.all_eq_true.1 (names_noBlank N hN) _ hm
    refine ⟨by simpa using this, ?_⟩
    exact ((goodErr_of N (goodErr_all N hN)).pre e nm h).2.2
  · cases h

theorem sameText_refl' (a : List Nat) : sameText a a := by
  induction a with
  | nil => trivial
  | cons c a ih => exact ⟨Or.inl rfl, ih⟩

theorem errName_inj {N : Names} (hN : N ∈ Cli.allNames) {e e' : Nat} {nm : List Nat} (h : errName N e = some nm)
    (h' : errName N e' = some nm) : e = e' := by
  unfold errName at h h'
  split at h
  · split at h'
    · exact (goodErr_of N (goodErr_all N hN)).inj e e' nm nm h h' (sameText_refl' nm)
    · cases h'
  · cases h

/-! ### A text says one thing only -/

theorem c_eq : codes "= " = [61, 32] := by decide
theorem c_m1 : codes "= -1 " = [61, 32, 45, 49, 32] := by decide
theorem c_m1n : codes "= -1 (errno " = [61, 32, 45, 49, 32, 40, 101, 114, 114, 110, 111, 32] := by decide
theorem c_q : codes "= ? " = [61, 32, 63, 32] := by decide
theorem c_q0 : codes "= ?" = [61, 32, 63] := by decide
theorem c_open : codes " (" = [32, 40] := by decide
theorem c_close : codes ")" = [41] := by decide
theorem c_sE : codes " E" = [32, 69] := by decide
theorem c_sn : codes " (errno " = [32, 40, 101, 114, 114, 110, 111, 32] := by decide
theorem c_sp : codes " " = [32] := by decide
theorem c_e : codes "=" = [61] := by decide
theorem c_lt : codes " <" = [32, 60] := by decide

theorem restart_good : ∀ p ∈ restartCodes, 32 ∉ codes p.1 ∧ (codes p.1).head? = some 69 := by decide +kernel
theorem restart_inj : ∀ p ∈ restartCodes, ∀ q ∈ restartCodes, codes p.1 = codes q.1 → p.2 = q.2 := by decide +kernel

/-- a word that starts with "E" after a blank names an error -/
theorem namesError_E {nm t : List Nat} (h : ∃ l, nm = 69 :: l) : NamesError (32 :: (nm ++ t)) := by
  obtain ⟨l, rfl⟩ := h
  exact Or.inl ⟨l ++ t, by rw [c_sE]; rfl⟩

theorem value_not {n t r : List Nat} {v : Int} (h : NumText n v) (hw : WordEnd t) (he : ¬ NamesError t) (hr : NamesError r)
    (e : n ++ t = [45, 49] ++ r) : False := by
  have hr' : r = [] ∨ ∃ c l, r = c :: l ∧ (c = 32 ∨ c = 60) := by
    rcases hr with ⟨l, rfl⟩ | ⟨l, rfl⟩
    · exact Or.inr ⟨32, _, by rw [c_sE]; rfl, Or.inl rfl⟩
    · exact Or.inr ⟨32, _, by rw [c_sn]; rfl, Or.inl rfl⟩
  have := split_word (fun c => c = 32 ∨ c = 60) n [45, 49] t r (fun c hc => by have := numText_chars h c hc; tauto) (by simp)
    (wordEnd_split hw) hr' e
  rw [this.2] at he
  exact he hr

/-- **C74.** No text says two things. -/
theorem says_unique (N : Names) (hN : N ∈ Cli.allNames) (text : List Nat) (o o' : Outcome) (h : Says N text o)
    (h' : Says N text o') : o = o' := by
  cases h with
  | @value n t v h1 h2 h3 =>
    generalize hx : codes "= " ++ n ++ t = x at h'
    cases h' with
    | @value n' t' v' g1 g2 g3 =>
      simp only [List.append_assoc, List.append_cancel_left_eq] at hx
      have := split_word (fun c => c = 32 ∨ c = 60) n n' t t' (fun c hc => by have := numText_chars h1 c hc; tauto)
        (fun c hc => by have := numText_chars g1 c hc; tauto) (wordEnd_split h2) (wordEnd_split g2) hx
      obtain ⟨rfl, rfl⟩ := this
      rw [numText_unique h1 g1]
    | @failed nm t' e g =>
      refine (value_not h1 h2 h3 (namesError_E (errName_good hN g).2) (t := t) (r := 32 :: (nm ++ (codes " (" ++ t'))) ?_).elim
      simpa [c_eq, c_m1] using hx
    | @failedNum d t' e g =>
      refine (value_not h1 h2 h3 (t := t) (r := codes " (errno " ++ (d ++ codes ")" ++ t')) (Or.inr ⟨_, rfl⟩) ?_).elim
      simpa [c_eq, c_m1n, c_sn] using hx
    | @restarts s e t' g =>
      obtain ⟨c, l, rfl, hc⟩ := numText_head h1
      simp [c_eq, c_q] at hx
      exact absurd hx.1 hc
    | @nothing t' g1 g2 =>
      obtain ⟨c, l, rfl, hc⟩ := numText_head h1
      simp [c_eq, c_q0] at hx
      exact absurd hx.1 hc
  | @failed nm t e h1 =>
    generalize hx : codes "= -1 " ++ nm ++ codes " (" ++ t = x at h'
    cases h' with
    | @value n' t' v' g1 g2 g3 =>
      refine (value_not g1 g2 g3 (namesError_E (errName_good hN h1).2) (t := t') (r := 32 :: (nm ++ (codes " (" ++ t))) ?_).elim
      simpa [c_eq, c_m1] using hx.symm
    | @failed nm' t' e' g =>
      simp only [List.append_assoc, List.append_cancel_left_eq] at hx
      have := split_word (fun c => c = 32) nm nm' _ _ (fun c hc e => (errName_good hN h1).1 (e ▸ hc))
        (fun c hc e => (errName_good hN g).1 (e ▸ hc)) (Or.inr ⟨32, _, by rw [c_open]; rfl, rfl⟩)
        (Or.inr ⟨32, _, by rw [c_open]; rfl, rfl⟩) hx
      obtain ⟨rfl, _⟩ := this
      rw [errName_inj hN h1 g]
    | @failedNum d t' e' g =>
      obtain ⟨l, rfl⟩ := (errName_good hN h1).2
      simp [c_m1, c_m1n] at hx
    | @restarts s e t' g => simp [c_m1, c_q] at hx
    | @nothing t' g1 g2 => simp [c_m1, c_q0] at hx
  | @failedNum d t e h1 =>
    generalize hx : codes "= -1 (errno " ++ d ++ codes ")" ++ t = x at h'
    cases h' with
    | @value n' t' v' g1 g2 g3 =>
      refine (value_not g1 g2 g3 (t := t') (r := codes " (errno " ++ (d ++ codes ")" ++ t)) (Or.inr ⟨_, rfl⟩) ?_).elim
      simpa [c_eq, c_m1n, c_sn] using hx.symm
    | @failed nm t' e' g =>
      obtain ⟨l, rfl⟩ := (errName_good hN g).2
      simp [c_m1, c_m1n] at hx
    | @failedNum d' t' e' g =>
      simp only [List.append_assoc, List.append_cancel_left_eq] at hx
      have := split_word (fun c => c = 41) d d' _ _ (fun c hc e => by have := numeral_chars (by omega) h1 c hc; omega)
        (fun c hc e => by have := numeral_chars (by omega) g c hc; omega) (Or.inr ⟨41, _, by rw [c_close]; rfl, rfl⟩)
        (Or.inr ⟨41, _, by rw [c_close]; rfl, rfl⟩) hx
      obtain ⟨rfl, _⟩ := this
      rw [numeral_unique (by omega) h1 g]
    | @restarts s e t' g => simp [c_m1n, c_q] at hx
    | @nothing t' g1 g2 => simp [c_m1n, c_q0] at hx
  | @restarts s e t h1 =>
    generalize hx : codes "= ? " ++ codes s ++ codes " (" ++ t = x at h'
    cases h' with
    | @value n' t' v' g1 g2 g3 =>
      obtain ⟨c, l, rfl, hc⟩ := numText_head g1
      simp [c_eq, c_q] at hx
      exact absurd hx.1.symm hc
    | @failed nm t' e' g => simp [c_m1, c_q] at hx
    | @failedNum d t' e' g => simp [c_m1n, c_q] at hx
    | @restarts s' e' t' g =>
      simp only [List.append_assoc, List.append_cancel_left_eq] at hx
      have := split_word (fun c => c = 32) (codes s) (codes s') _ _ (fun c hc e => (restart_good _ h1).1 (e ▸ hc))
        (fun c hc e => (restart_good _ g).1 (e ▸ hc)) (Or.inr ⟨32, _, by rw [c_open]; rfl, rfl⟩)
        (Or.inr ⟨32, _, by rw [c_open]; rfl, rfl⟩) hx
      rw [show e = e' from restart_inj _ h1 _ g this.1]
    | @nothing t' g1 g2 =>
      refine absurd (Or.inl ?_) g2
      have := (restart_good _ h1).2
      cases hs : codes s with
      | nil => rw [hs] at this; cases this
      | cons a l =>
        rw [hs] at this hx
        simp only [List.head?_cons, Option.some.injEq] at this
        subst this
        refine ⟨l ++ codes " (" ++ t, ?_⟩
        simpa [c_q, c_q0, c_sE] using hx.symm
  | @nothing t h1 h2 =>
    generalize hx : codes "= ?" ++ t = x at h'
    cases h' with
    | @value n' t' v' g1 g2 g3 =>
      obtain ⟨c, l, rfl, hc⟩ := numText_head g1
      simp [c_eq, c_q0] at hx
      exact absurd hx.1.symm hc
    | @failed nm t' e' g => simp [c_m1, c_q0] at hx
    | @failedNum d t' e' g => simp [c_m1n, c_q0] at hx
    | @restarts s' e' t' g =>
      refine absurd (Or.inl ?_) h2
      have := (restart_good _ g).2
      cases hs : codes s' with
      | nil => rw [hs] at this; cases this
      | cons a l =>
        rw [hs] at this hx
        simp only [List.head?_cons, Option.some.injEq] at this
        subst this
        refine ⟨l ++ codes " (" ++ t', ?_⟩
        simpa [c_q, c_q0, c_sE] using hx
    | @nothing t' g1 g2 => rfl

/-! ### What is shown -/

/-- what may follow a descriptor or a process id: nothing, "<…", " […" or " /*…" -/
def Deco (d : List Nat) : Prop := d = [] ∨ (∃ l, d = 60 :: l) ∨ (∃ l, d = 32 :: 91 :: l) ∨ ∃ l, d = 32 :: 47 :: l

/-- Fit to be shown: an error goes with the value -1 (C74, reading); the format is one of those defined; the decoder's
text does not pretend to be an error number. -/
structure Fit (S : Shown) : Prop where
  names : S.names ∈ Cli.allNames
  lo : -2 ^ 63 ≤ S.got.rval
  hi : S.got.rval < 2 ^ 63
  err : S.got.err ≠ 0 → S.got.rval = -1
  fmt : S.res % 16 ∈ [0, 1, 2, 8, 9, 10, 11, 12]
  aux : ∀ a, S.aux = some a → ¬ codes "errno " <+: a
  fd : ∀ v, Deco (S.fdInfo v)
  pid : ∀ v, Deco (S.pidInfo v)

/-- the tail of the line can follow a value -/
def TailOk (t : List Nat) : Prop :=
  t = [] ∨ (∃ l, t = 32 :: 40 :: l ∧ ¬ codes "errno " <+: l) ∨ (∃ l, t = 32 :: 60 :: l) ∨ (∃ l, t = 60 :: l) ∨
    (∃ l, t = 32 :: 91 :: l) ∨ ∃ l, t = 32 :: 47 :: l

theorem tailOk_wordEnd {t : List Nat} (h : TailOk t) : WordEnd t := by
  rcases h with rfl | ⟨l, rfl, _⟩ | ⟨l, rfl⟩ | ⟨l, rfl⟩ | ⟨l, rfl⟩ | ⟨l, rfl⟩
  · exact Or.inl rfl
  all_goals first
    | exact Or.inr (Or.inl ⟨_, rfl⟩)
    | exact Or.inr (Or.inr ⟨_, rfl⟩)

theorem c_errno : codes "errno " = [101, 114, 114, 110, 111, 32] := by decide

theorem tailOk_names {t : List Nat} (h : TailOk t) : ¬ NamesError t := by
  rintro (⟨m, hm⟩ | ⟨m, hm⟩)
  · rw [c_sE] at hm
    rcases h with rfl | ⟨l, rfl, _⟩ | ⟨l, rfl⟩ | ⟨l, rfl⟩ | ⟨l, rfl⟩ | ⟨l, rfl⟩ <;> simp at hm
  · rw [c_sn] at hm
    rcases h with rfl | ⟨l, rfl, hl⟩ | ⟨l, rfl⟩ | ⟨l, rfl⟩ | ⟨l, rfl⟩ | ⟨l, rfl⟩
    · simp at hm
    · simp at hm
      exact hl ⟨m, by rw [c_errno, hm]; rfl⟩
    all_goals simp at hm

theorem tailOk_deco {d t : List Nat} (h : Deco d) (ht : TailOk t) : TailOk (d ++ t) := by
  rcases h with rfl | ⟨l, rfl⟩ | ⟨l, rfl⟩ | ⟨l, rfl⟩
  · exact ht
  · exact Or.inr (Or.inr (Or.inr (Or.inl ⟨_, rfl⟩)))
  · exact Or.inr (Or.inr (Or.inr (Or.inr (Or.inl ⟨_, rfl⟩))))
  · exact Or.inr (Or.inr (Or.inr (Or.inr (Or.inr ⟨_, rfl⟩))))

theorem note_not_errno {a x : List Nat} (h : ¬ codes "errno " <+: a) : ¬ codes "errno " <+: a ++ 41 :: x := by
  rintro ⟨r, hr⟩
  rcases List.append_eq_append_iff.1 hr with ⟨y, h1, h2⟩ | ⟨y, h1, h2⟩
  · exact h ⟨y, h1.symm⟩
  · cases y with
    | nil => exact h ⟨[], by simpa using h1⟩
    | cons c y =>
      simp only [List.cons_append, List.cons.injEq] at h2
      have : (41 : Nat) ∈ codes "errno " := by rw [h1, h2.1]; simp
      rw [c_errno] at this; simp at this

theorem tailOk_note {a t : List Nat} (h : ¬ codes "errno " <+: a) : TailOk (note a ++ t) := by
  refine Or.inr (Or.inl ⟨a ++ 41 :: t, ?_, note_not_errno h⟩)
  simp [note, c_open, c_close]

theorem tailOk_time (S : Shown) : TailOk (match S.time with | some t => codes " <" ++ t ++ codes ">" | none => []) := by
  cases S.time with
  | none => exact Or.inl rfl
  | some t => exact Or.inr (Or.inr (Or.inl ⟨_, by rw [c_lt]; rfl⟩))

/-- the part of the line after the value -/
def rest (S : Shown) : List Nat :=
  (match S.aux with
   | some a => if !S.raw && S.res.testBit 4 then note a else []
   | none => []) ++
  injectedNote S ++
  (match S.time with
   | some t => codes " <" ++ t ++ codes ">"
   | none => [])

theorem rest_ok (S : Shown) (h : Fit S) : TailOk (rest S) := by
  have h2 : TailOk (injectedNote S ++ (match S.time with | some t => codes " <" ++ t ++ codes ">" | none => [])) := by
    have ht := tailOk_time S
    unfold injectedNote
    have hd : TailOk ((if S.delayed then note (codes "DELAYED") else []) ++
        (match S.time with | some t => codes " <" ++ t ++ codes ">" | none => [])) := by
      split
      · exact tailOk_note (by decide)
      · exact ht
    rw [List.append_assoc]
    split
    · exact tailOk_note (by decide)
    · split
      · exact tailOk_note (by decide)
      · split
        · exact tailOk_note (by decide)
        · exact hd
  unfold rest
  rw [List.append_assoc]
  cases ha : S.aux with
  | none => exact h2
  | some a =>
    simp only
    split
    · exact tailOk_note (h.aux a ha)
    · exact h2

theorem resultText_eq (S : Shown) : resultText S = codes "=" ++ (printRet S ++ rest S) := by
  unfold resultText rest
  cases S.aux <;> cases S.time <;> simp [List.append_assoc]

/-- the value is the number that was returned, as a number of the tracee's word size (ids as 32 bits) -/
def SameValue (S : Shown) (v : Int) : Prop :=
  if S.raw = false ∧ (S.pers = .i386 ∨ S.res % 16 ∈ [9, 10, 11, 12]) then (v - S.got.rval) % 2 ^ 32 = 0
  else (v - S.got.rval) % 2 ^ 64 = 0

/-- what ought to be said -/
def Right (S : Shown) (o : Outcome) : Prop :=
  if S.raw = false ∧ S.res.testBit 5 = true then o = .nothing
  else if S.got.err = 0 then ∃ v, o = .value v ∧ SameValue S v
  else if S.raw = false ∧ S.got.err ∈ [512, 513, 514, 516] then o = .restarts S.got.err
  else o = .failed S.got.err

theorem says_value {N : Names} {n t : List Nat} {v : Int} (h : NumText n v) (ht : TailOk t) :
    Says N (codes "=" ++ (codes " " ++ (n ++ t))) (.value v) := by
  have := Says.value (N := N) h (tailOk_wordEnd ht) (tailOk_names ht)
  simpa [c_e, c_sp, c_eq] using this

theorem valD_m1 : valD (-1) = [45, 49] := by decide +kernel

theorem says_err (S : Shown) (h : Fit S) (he : S.got.err ≠ 0) (t : List Nat) :
    Says S.names (codes "=" ++ (printErrRet S ++ t)) (.failed S.got.err) := by
  unfold printErrRet
  rw [h.err he, valD_m1]
  cases hn : errName S.names S.got.err with
  | some nm =>
    have := Says.failed (N := S.names) (t := S.strerror S.got.err ++ codes ")" ++ t) hn
    simpa [c_e, c_sp, c_m1, note] using this
  | none =>
    have := Says.failedNum (N := S.names) (t := t) (numeral_radix 10 S.got.err (by omega) (by omega))
    simpa [c_e, c_sp, c_sn, c_m1n, valU] using this

theorem says_erestart (S : Shown) (s l : String) (e : Nat) (h : (s, e) ∈ restartCodes) (t : List Nat) :
    Says S.names (codes "=" ++ (printErestart s l ++ t)) (.restarts e) := by
  have := Says.restarts (N := S.names) (t := codes l ++ codes ")" ++ t) h
  unfold printErestart note
  have hq : codes " ?" = [32, 63] := by decide
  simpa [c_e, c_sp, c_q, hq] using this

theorem printValue_says (S : Shown) (h : Fit S) (hraw : S.raw = false) :
    ∃ v, Says S.names (codes "=" ++ (codes " " ++ (printValue S ++ rest S))) (.value v) ∧ SameValue S v := by
  have hr := rest_ok S h
  have hu : (S.got.rval % 2 ^ 64).toNat < 2 ^ 64 := by omega
  have hlo := h.lo
  have hhi := h.hi
  have hval : ∀ n v, NumText n v → SameValue S v → printValue S = n → ∃ v, Says S.names
      (codes "=" ++ (codes " " ++ (printValue S ++ rest S))) (.value v) ∧ SameValue S v := by
    intro n v h1 h2 h3
    exact ⟨v, by rw [h3]; exact says_value h1 hr, h2⟩
  have hvald : ∀ n v d, NumText n v → Deco d → SameValue S v → printValue S = n ++ d → ∃ v, Says S.names
      (codes "=" ++ (codes " " ++ (printValue S ++ rest S))) (.value v) ∧ SameValue S v := by
    intro n v d h1 hd h2 h3
    exact ⟨v, by rw [h3, List.append_assoc]; exact says_value h1 (tailOk_deco hd hr), h2⟩
  have hword : ∀ k, S.res % 16 = k → k ∈ [0, 1, 2] →
      SameValue S ((if S.pers.klong8 then (S.got.rval % 2 ^ 64).toNat else (S.got.rval % 2 ^ 64).toNat % 2 ^ 32 : Nat) : Int) := by
    intro k hk hk'
    unfold SameValue
    cases hp : S.pers <;> simp only [Pers.klong8, hraw, hk] <;> simp at hk' <;> rcases hk' with rfl | rfl | rfl <;> simp <;> omega
  have hlt : (if S.pers.klong8 then (S.got.rval % 2 ^ 64).toNat else (S.got.rval % 2 ^ 64).toNat % 2 ^ 32) < 2 ^ 64 := by
    split <;> omega
  have hfmt := h.fmt
  simp only [List.mem_cons, List.not_mem_nil, or_false] at hfmt
  have hs32 : -2 ^ 63 ≤ s32 S.got.rval ∧ s32 S.got.rval < 2 ^ 63 := by unfold s32; omega
  have hid : ∀ k, S.res % 16 = k → k ∈ [9, 10, 11, 12] → SameValue S (s32 S.got.rval) := by
    intro k hk hk'
    unfold SameValue
    rw [if_pos ⟨hraw, Or.inr (hk ▸ hk')⟩]
    unfold s32; omega
  rcases hfmt with hk | hk | hk | hk | hk | hk | hk | hk
  · exact hval _ _ (numText_valU _ hlt) (hword 0 hk (by simp)) (by unfold printValue RVAL_MASK; simp only [hk])
  · exact hval _ _ (numText_valX _ hlt) (hword 1 hk (by simp)) (by unfold printValue RVAL_MASK; simp only [hk])
  · exact hval _ _ (numText_valO _ hlt) (hword 2 hk (by simp)) (by unfold printValue RVAL_MASK; simp only [hk])
  · by_cases hc : (!S.pers.klong8 || decide ((S.got.rval % 2 ^ 64).toNat ≤ 2 ^ 31 - 1)) = true
    · refine hvald _ _ _ (numText_valD _ hs32.1 hs32.2) (h.fd _) ?_ (by unfold printValue RVAL_MASK; simp only [hk]; rw [if_pos hc])
      unfold SameValue s32
      cases hp : S.pers <;> simp [Pers.klong8, hp, hraw, hk] at hc ⊢ <;> omega
    · refine hval _ _ (numText_valD _ hlo hhi) ?_ (by unfold printValue RVAL_MASK; simp only [hk]; rw [if_neg hc])
      unfold SameValue
      simp
  all_goals
    refine hvald _ _ _ (numText_valD _ hs32.1 hs32.2) (h.pid (s32 S.got.rval)) (hid _ hk (by simp)) (by unfold printValue RVAL_MASK; simp only [hk])

/-- **C74.** The line says what happened: for every value, error, format, personality and decoration. -/
theorem result_shown (S : Shown) (h : Fit S) : ∃ o, Says S.names (resultText S) o ∧ Right S o := by
  have hr := rest_ok S h
  have hlo := h.lo
  have hhi := h.hi
  rw [resultText_eq]
  unfold printRet Right
  cases hraw : S.raw with
  | true =>
    simp only [if_true, Bool.true_eq_false, false_and, if_false]
    by_cases he : S.got.err = 0
    · rw [if_neg (by simpa using he)]; simp only [if_pos he]
      refine ⟨.value (S.got.rval % 2 ^ 64).toNat, ?_, _, rfl, ?_⟩
      · rw [List.append_assoc]
        exact says_value (numText_valX _ (by omega)) hr
      · unfold SameValue; rw [if_neg (by simp [hraw])]; omega
    · rw [if_pos he]; simp only [if_neg he]
      exact ⟨_, says_err S h he _, rfl⟩
  | false =>
    simp only [Bool.false_eq_true, if_false, true_and]
    cases hb : S.res.testBit 5 with
    | true =>
      simp only [not_true_eq_false, false_and, if_false, if_true]
      refine ⟨.nothing, ?_, rfl⟩
      have := Says.nothing (N := S.names) (tailOk_wordEnd hr) (tailOk_names hr)
      have hq : codes "?" = [63] := by decide
      simpa [c_e, c_sp, c_q0, hq] using this
    | false =>
      simp only [Bool.false_eq_true, not_false_eq_true, true_and, if_false]
      by_cases he : S.got.err = 0
      · rw [if_neg (by simpa using he)]; simp only [if_pos he]
        obtain ⟨v, h1, h2⟩ := printValue_says S h hraw
        exact ⟨_, by simpa [List.append_assoc] using h1, v, rfl, h2⟩
      · rw [if_pos he]; simp only [if_neg he]
        by_cases h1 : S.got.err = 512
        · rw [if_pos h1]; simp only [h1]
          exact ⟨_, says_erestart S _ _ 512 (by decide +kernel) _, rfl⟩
        by_cases h2 : S.got.err = 513
        · rw [if_neg h1, if_pos h2]; simp only [h2]
          exact ⟨_, says_erestart S _ _ 513 (by decide +kernel) _, rfl⟩
        by_cases h3 : S.got.err = 514
        · rw [if_neg h1, if_neg h2, if_pos h3]; simp only [h3]
          exact ⟨_, says_erestart S _ _ 514 (by decide +kernel) _, rfl⟩
        by_cases h4 : S.got.err = 516
        · rw [if_neg h1, if_neg h2, if_neg h3, if_pos h4]; simp only [h4]
          exact ⟨_, says_erestart S _ _ 516 (by decide +kernel) _, rfl⟩
        rw [if_neg h1, if_neg h2, if_neg h3, if_neg h4]; simp only [if_neg (show ¬ S.got.err ∈ [512, 513, 514, 516] by simp [h1, h2, h3, h4])]
        exact ⟨_, says_err S h he _, rfl⟩

/-! ### Reading the outcome -/

/-- what the call returned, by the kernel's convention: the register as a signed number of the word size -/
def Returned (p : Pers) (ax : Nat) (r : Int) : Prop :=
  match p with
  | .i386 => (r - ax) % 2 ^ 32 = 0 ∧ -2 ^ 31 ≤ r ∧ r < 2 ^ 31
  | _ => (r - ax) % 2 ^ 64 = 0 ∧ -2 ^ 63 ≤ r ∧ r < 2 ^ 63

/-- the kernel's convention for errors -/
def IsErr (r : Int) : Prop := -4095 ≤ r ∧ r ≤ -1

/-- the size of a register of the tracee -/
def modulus (p : Pers) : Int :=
  match p with
  | .i386 => 2 ^ 32
  | _ => 2 ^ 64

/-- contract of PTRACE_GET_SYSCALL_INFO: `rval` is the error, or the register -/
def InfoFor (p : Pers) (r : Int) (i : Info) : Prop :=
  (i.isError = true ↔ IsErr r) ∧ (IsErr r → i.rval = r) ∧ (¬ IsErr r → (i.rval - r) % modulus p = 0)

/-- the outcome as read: an error with its number, or a value that is the register's -/
def ReadAs (p : Pers) (fails : Prop) (r : Int) (g : Got) : Prop :=
  (fails → g.rval = -1 ∧ (g.err : Int) = -r) ∧
  (¬ fails → g.err = 0 ∧ (g.rval - r) % modulus p = 0 ∧ -2 ^ 63 ≤ g.rval ∧ g.rval < 2 ^ 63)

/-- **C74, from registers.** -/
theorem read_regs (p : Pers) (nf : Bool) (ax : Nat) (r : Int) (h : Returned p ax r) :
    ReadAs p (nf = false ∧ IsErr r) r (getResult p nf ax none) := by
  unfold ReadAs IsErr getResult archGetError
  cases p with
  | i386 =>
    simp only [Returned] at h
    have e : s32 (ax : Int) = r := by unfold s32; omega
    simp only [if_true, e, modulus, isNegatedErrno, Pers.klong8, Bool.false_eq_true, if_false]
    cases nf
    · by_cases hr : (-4095 ≤ r ∧ r ≤ -1)
      · have hc : (r % 2 ^ 64).toNat % 2 ^ 32 ≥ (2 ^ 64 - 4095) % 2 ^ 32 := by omega
        rw [if_pos (by simpa using hc)]
        simp only [true_and]
        exact ⟨fun _ => by omega, fun hn => absurd hr hn⟩
      · have hc : ¬ (r % 2 ^ 64).toNat % 2 ^ 32 ≥ (2 ^ 64 - 4095) % 2 ^ 32 := by omega
        rw [if_neg (by simpa using hc)]
        simp only [true_and]
        exact ⟨fun hn => absurd hn hr, fun _ => by omega⟩
    · simp only [Bool.not_true, Bool.false_and, Bool.false_eq_true, if_false, Bool.true_eq_false, false_and, not_false_eq_true,
        forall_true_left, false_implies, true_and]
      omega
  | x64 =>
    simp only [Returned] at h
    have e : s64 (ax : Int) = r := by unfold s64; omega
    simp only [reduceCtorEq, if_false, e, modulus, isNegatedErrno, Pers.klong8, if_true]
    cases nf
    · by_cases hr : (-4095 ≤ r ∧ r ≤ -1)
      · have hc : (r % 2 ^ 64).toNat ≥ 2 ^ 64 - 4095 := by omega
        rw [if_pos (by simpa using hc)]
        simp only [true_and]
        exact ⟨fun _ => by omega, fun hn => absurd hr hn⟩
      · have hc : ¬ (r % 2 ^ 64).toNat ≥ 2 ^ 64 - 4095 := by omega
        rw [if_neg (by simpa using hc)]
        simp only [true_and]
        exact ⟨fun hn => absurd hn hr, fun _ => by omega⟩
    · simp only [Bool.not_true, Bool.false_and, Bool.false_eq_true, if_false, Bool.true_eq_false, false_and, not_false_eq_true,
        forall_true_left, false_implies, true_and]
      omega
  | x32 =>
    simp only [Returned] at h
    have e : s64 (ax : Int) = r := by unfold s64; omega
    simp only [reduceCtorEq, if_false, e, modulus, isNegatedErrno, Pers.klong8, if_true]
    cases nf
    · by_cases hr : (-4095 ≤ r ∧ r ≤ -1)
      · have hc : (r % 2 ^ 64).toNat ≥ 2 ^ 64 - 4095 := by omega
        rw [if_pos (by simpa using hc)]
        simp only [true_and]
        exact ⟨fun _ => by omega, fun hn => absurd hr hn⟩
      · have hc : ¬ (r % 2 ^ 64).toNat ≥ 2 ^ 64 - 4095 := by omega
        rw [if_neg (by simpa using hc)]
        simp only [true_and]
        exact ⟨fun hn => absurd hn hr, fun _ => by omega⟩
    · simp only [Bool.not_true, Bool.false_and, Bool.false_eq_true, if_false, Bool.true_eq_false, false_and, not_false_eq_true,
        forall_true_left, false_implies, true_and]
      omega

/-- **C74, from PTRACE_GET_SYSCALL_INFO**, for a call that can fail (or did not return what looks like an error).  Missing:
calls that cannot fail, see `info_never_fails`. -/
theorem read_info_partial (p : Pers) (nf : Bool) (ax : Nat) (r : Int) (i : Info) (h : InfoFor p r i) (hn : nf = true → ¬ IsErr r) :
    ReadAs p (nf = false ∧ IsErr r) r (getResult p nf ax (some i)) := by
  obtain ⟨h1, h2, h3⟩ := h
  unfold ReadAs getResult
  by_cases hr : IsErr r
  · have hnf : nf = false := by cases nf with
      | false => rfl
      | true => exact absurd hr (hn rfl)
    simp only [h1.2 hr, if_true, h2 hr, hnf, hr, true_and, not_true_eq_false, false_implies, and_true, forall_true_left]
    unfold IsErr at hr
    omega
  · have he : ¬ i.isError = true := fun h => hr (h1.1 h)
    have := h3 hr
    simp only [he, hr, and_false, false_implies, not_false_eq_true, forall_true_left, true_and]
    unfold s64
    cases p <;> simp only [modulus] at this ⊢ <;> simp <;> omega

/-- **Finding.** A call that cannot fail (here a 32-bit `setfsuid32`, which returned the user id 4294967294) is shown as
failed when the outcome is read with PTRACE_GET_SYSCALL_INFO; read from registers it is shown as returned. -/
theorem info_never_fails : ∃ (ax : Nat) (r : Int) (i : Info), Returned .i386 ax r ∧ InfoFor .i386 r i ∧
    getResult .i386 true ax (some i) = ⟨-1, 2⟩ ∧ getResult .i386 true ax none = ⟨4294967294, 0⟩ := by
  refine ⟨4294967294, -2, ⟨true, -2⟩, ?_, ?_, by decide +kernel, by decide +kernel⟩
  · unfold Returned; decide +kernel
  · refine ⟨⟨fun _ => by unfold IsErr; omega, fun _ => rfl⟩, fun _ => rfl, fun h => absurd ?_ h⟩
    unfold IsErr; omega

/-- `r` was read from what the kernel offers -/
def Offered (p : Pers) (nf : Bool) (ax : Nat) (r : Int) (info : Option Info) : Prop :=
  Returned p ax r ∧ ∀ i, info = some i → InfoFor p r i ∧ (nf = true → ¬ IsErr r)

/-- **C74, from the register to the line.** The text after a call says that it failed, with which error, that it will be
restarted, or what it returned, as the kernel had it.  Missing: calls that cannot fail, on kernels with
PTRACE_GET_SYSCALL_INFO, when they return what looks like an error. -/
theorem call_shown_partial (S : Shown) (nf : Bool) (ax : Nat) (r : Int) (info : Option Info) (ho : Offered S.pers nf ax r info)
    (hg : S.got = getResult S.pers nf ax info) (hN : S.names ∈ Cli.allNames) (hf : S.res % 16 ∈ [0, 1, 2, 8, 9, 10, 11, 12])
    (ha : ∀ a, S.aux = some a → ¬ codes "errno " <+: a) (hfd : ∀ v, Deco (S.fdInfo v)) (hpid : ∀ v, Deco (S.pidInfo v))
    (hnone : S.res.testBit 5 = false) :
    (nf = false ∧ IsErr r → Says S.names (resultText S)
      (if S.raw = false ∧ (-r).toNat ∈ [512, 513, 514, 516] then .restarts (-r).toNat else .failed (-r).toNat)) ∧
    (¬ (nf = false ∧ IsErr r) → ∃ v, Says S.names (resultText S) (.value v) ∧
      (if S.res % 16 ∈ [9, 10, 11, 12] ∧ S.raw = false then (v - r) % 2 ^ 32 = 0 else (v - r) % modulus S.pers = 0)) := by
  have hra : ReadAs S.pers (nf = false ∧ IsErr r) r S.got := by
    rw [hg]
    cases hi : info with
    | none => exact read_regs _ _ _ _ ho.1
    | some i => exact read_info_partial _ _ _ _ _ (ho.2 i hi).1 (ho.2 i hi).2
  have hfit : Fit S := by
    by_cases hc : nf = false ∧ IsErr r
    · have := hra.1 hc
      exact ⟨hN, by omega, by omega, fun _ => this.1, hf, ha, hfd, hpid⟩
    · have := hra.2 hc
      exact ⟨hN, by omega, by omega, fun h => absurd this.1 h, hf, ha, hfd, hpid⟩
  obtain ⟨o, hs, hr⟩ := result_shown S hfit
  unfold Right at hr
  rw [if_neg (by simp [hnone])] at hr
  constructor
  · intro hc
    have h := hra.1 hc
    have hr' := hc.2
    unfold IsErr at hr'
    have he : S.got.err = (-r).toNat := by omega
    rw [if_neg (by omega), he] at hr
    split at hr <;> rename_i hx
    · rw [if_pos hx]; exact hr ▸ hs
    · rw [if_neg hx]; exact hr ▸ hs
  · intro hc
    have h := hra.2 hc
    rw [if_pos h.1] at hr
    obtain ⟨v, rfl, hv⟩ := hr
    refine ⟨v, hs, ?_⟩
    unfold SameValue at hv
    cases hp : S.pers <;> simp only [hp, modulus] at hv h ⊢ <;> split <;> rename_i hx
    all_goals
      split at hv <;> rename_i hy <;> first | omega | skip
    all_goals simp at hx hy
    all_goals first | omega | (have := hx hy.2; simp [hy.1] at this)

/-! ### C75 -/

/-- Specification: the number of digits of a fraction of a second the user asked for; letters in either case. -/
def digitsAsked : Option (List Nat) → Option Nat
  | none => some 6
  | some a =>
    match a.map (fun c => if 65 ≤ c ∧ c ≤ 90 then c + 32 else c) with
    | [115] => some 0
    | [109, 115] => some 3
    | [117, 115] => some 6
    | [110, 115] => some 9
    | _ => none

/-- `text` is a number of seconds with exactly `k` decimals, `x` units of the last of them -/
def TimeText (k : Nat) (text : List Nat) (x : Nat) : Prop :=
  if k = 0 then Numeral 10 text x
  else ∃ i f m r, text = i ++ 46 :: f ∧ Numeral 10 i m ∧ Numeral 10 f r ∧ f.length = k ∧ x = m * 10 ^ k + r

theorem dec_radix (n : Nat) : Base.dec n = radix 10 n := by
  induction n using Nat.strongRecOn with
  | ind n ih =>
    unfold Base.dec radix
    by_cases h : n < 10
    · rw [dif_pos h, dif_pos (by omega)]; simp [digit, h]
    · rw [dif_neg h, dif_neg (by omega), ih _ (by omega)]
      simp [digit, show n % 10 < 10 by omega]

theorem numeral_decPad (w n : Nat) : Numeral 10 (Base.decPad w n) n := by
  unfold Base.decPad
  rw [dec_radix]
  exact numeral_zeros (by omega) _ (numeral_radix 10 n (by omega) (by omega))

theorem tOpt_spec (arg : Option (List Nat)) : (tOpt arg).map (·.1) = digitsAsked arg ∧
    ∀ w s, tOpt arg = some (w, s) → (w, s) ∈ [(0, 1000000000), (3, 1000000), (6, 1000), (9, 1)] := by
  cases arg with
  | none => exact ⟨rfl, by rintro w s h; cases h; simp⟩
  | some a =>
    unfold digitsAsked
    dsimp only
    have hm : a.map (fun c => if 65 ≤ c ∧ c ≤ 90 then c + 32 else c) = a.map Time.lower := rfl
    rw [hm]
    cases a with
    | nil => exact ⟨rfl, fun w s h => by cases h⟩
    | cons c a =>
      simp only [tOpt, timeUnits]
      generalize hl : (c :: a).map Time.lower = l
      have h1 : ∀ u, Time.caseEq u (c :: a) = (u.map Time.lower == l) := fun u => by unfold Time.caseEq; rw [hl]
      have e1 : (codes "s").map Time.lower = [115] := by decide
      have e2 : (codes "ms").map Time.lower = [109, 115] := by decide
      have e3 : (codes "us").map Time.lower = [117, 115] := by decide
      have e4 : (codes "ns").map Time.lower = [110, 115] := by decide
      simp only [List.find?_cons, h1, e1, e2, e3, e4, List.find?_nil]
      split <;> rename_i hc
      · simp only [beq_iff_eq] at hc; subst hc; exact ⟨rfl, by rintro w s h; cases h; simp⟩
      split <;> rename_i hc2
      · simp only [beq_iff_eq] at hc2; subst hc2; exact ⟨rfl, by rintro w s h; cases h; simp⟩
      split <;> rename_i hc3
      · simp only [beq_iff_eq] at hc3; subst hc3; exact ⟨rfl, by rintro w s h; cases h; simp⟩
      split <;> rename_i hc4
      · simp only [beq_iff_eq] at hc4; subst hc4; exact ⟨rfl, by rintro w s h; cases h; simp⟩
      simp only [beq_eq_false_iff_ne, ne_eq] at hc hc2 hc3 hc4
      refine ⟨?_, fun w s h => by cases h⟩
      split <;> simp_all

/-- **C75.** The time shown is the time between the two readings of the clock, cut to the asked number of digits. -/
theorem elapsed_shown (arg : Option (List Nat)) (w s : Nat) (h : tOpt arg = some (w, s)) (ts etime : Time.Ts)
    (ha : Time.Norm ts) (hb : Time.Norm etime) (h0 : 0 ≤ etime.sec) (hfa : Time.Fits ts.sec) (hfb : Time.Fits etime.sec)
    (hle : Time.ns etime ≤ Time.ns ts) :
    ∃ k text, digitsAsked arg = some k ∧ elapsed w s ts etime = some text ∧
      TimeText k text ((Time.ns ts - Time.ns etime).toNat / 10 ^ (9 - k)) := by
  have hd := (tOpt_spec arg).1
  rw [h] at hd
  have hm := (tOpt_spec arg).2 w s h
  have h0' : 0 ≤ ts.sec := by
    unfold Time.Norm at ha hb; unfold Time.ns at hle
    omega
  obtain ⟨d, hd1, hn, hns⟩ := Time.tsSub_clock ts etime ha hb h0' h0 hfa hfb
  obtain ⟨ds, dn⟩ := d
  unfold Time.Norm at hn
  dsimp only at hn
  have hds : 0 ≤ ds := by
    have : Time.ns ⟨ds, dn⟩ = ds * 1000000000 + dn := rfl
    omega
  refine ⟨w, _, hd.symm, by unfold elapsed; rw [hd1], ?_⟩
  have hsec : valD ds = radix 10 ds.toNat := by
    unfold valD
    rw [if_neg (by omega), show ds.natAbs = ds.toNat by omega]
  have hN : Numeral 10 (radix 10 ds.toNat) ds.toNat := numeral_radix 10 _ (by omega) (by omega)
  rw [← hns, show Time.ns ⟨ds, dn⟩ = ds * 1000000000 + dn from rfl]
  unfold TimeText
  dsimp only
  rw [hsec]
  have hdot : codes "." = [46] := by decide
  simp only [List.mem_cons, Prod.mk.injEq, List.not_mem_nil, or_false] at hm
  rcases hm with ⟨rfl, rfl⟩ | ⟨rfl, rfl⟩ | ⟨rfl, rfl⟩ | ⟨rfl, rfl⟩
  · rw [if_pos rfl, if_neg (by simp), List.append_nil]
    have : (ds * 1000000000 + dn).toNat / 10 ^ (9 - 0) = ds.toNat := by simp only [Nat.reduceSub, Nat.reducePow]; omega
    rw [this]; exact hN
  · rw [if_neg (by omega), if_pos (by omega), hdot]
    exact ⟨_, _, _, _, rfl, hN, numeral_decPad _ _, Base.decPad_length _ _ (by omega) (by simp only [Nat.reduceSub, Nat.reducePow]; omega), by simp only [Nat.reduceSub, Nat.reducePow]; omega⟩
  · rw [if_neg (by omega), if_pos (by omega), hdot]
    exact ⟨_, _, _, _, rfl, hN, numeral_decPad _ _, Base.decPad_length _ _ (by omega) (by simp only [Nat.reduceSub, Nat.reducePow]; omega), by simp only [Nat.reduceSub, Nat.reducePow]; omega⟩
  · rw [if_neg (by omega), if_pos (by omega), hdot]
    exact ⟨_, _, _, _, rfl, hN, numeral_decPad _ _, Base.decPad_length _ _ (by omega) (by simp only [Nat.reduceSub, Nat.reducePow]; omega), by simp only [Nat.reduceSub, Nat.reducePow]; omega⟩

/-! ### Witnesses -/

/-- an i386 tracee whose `open` failed with ENOENT -/
def exS (ax : Nat) (info : Option Info) (res : Nat) : Shown where
  names := Cli.generic
  pers := .i386
  got := getResult .i386 false ax info
  raw := false
  res := res
  aux := some (codes "O_RDWR")
  tampered := false
  poked := false
  delayed := true
  time := some (codes "0.000012")
  strerror := fun _ => codes "No such file or directory"
  fdInfo := fun _ => codes "</etc/passwd>"
  pidInfo := fun _ => []

example : resultText (exS 4294967294 none 8) =
    codes "= -1 ENOENT (No such file or directory) (DELAYED) <0.000012>" := by decide +kernel
example : resultText (exS 3 (some ⟨false, 3⟩) (8 + 16)) =
    codes "= 3</etc/passwd> (O_RDWR) (DELAYED) <0.000012>" := by decide +kernel
example : resultText (exS 0xfffffe00 none 0) =
    codes "= ? ERESTARTSYS (To be restarted if SA_RESTART is set) (DELAYED) <0.000012>" := by decide +kernel
example : resultText (exS 0x80001000 none 1) = codes "= 0x80001000 (DELAYED) <0.000012>" := by decide +kernel
example : Returned .i386 4294967294 (-2) ∧ IsErr (-2) := by unfold Returned IsErr; decide +kernel
example : Offered .i386 false 3 3 (some ⟨false, 3⟩) := by
  refine ⟨by unfold Returned; decide +kernel, ?_⟩
  rintro i ⟨⟩
  have : ¬ IsErr 3 := by unfold IsErr; omega
  exact ⟨⟨⟨fun h => (by cases h), fun h => absurd h this⟩, fun h => absurd h this, fun _ => by decide⟩, fun _ => this⟩
example : elapsed 6 1000 ⟨12, 1000⟩ ⟨10, 999999999⟩ = some (codes "1.000001") ∧ tOpt (some (codes "MS")) = some (3, 1000000) ∧
    tOpt (some []) = none := by decide +kernel

end Strace.Result
