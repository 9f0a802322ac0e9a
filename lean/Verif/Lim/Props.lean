import Verif.Lim.Spec
import Verif.Memc.Props

/-!
# Proofs about resource limits and priorities
-/
namespace Strace.Lim

open Strace.Prctl (Mem umoven number)
open Strace.Base (dec readDec dec_digit dec_ne_nil readDec_dec dec_length_le)
open Strace.Lim.Spec

theorem digits_dec (n : Nat) : digits (dec n) = n := readDec_dec n

theorem dec_isDigit (n : Nat) : ∀ c ∈ dec n, isDigit c = true := by
  intro c hc
  have := dec_digit n c hc
  simp only [isDigit, decide_eq_true_eq]
  omega

theorem take_digits {d r : List Nat} (hd : ∀ c ∈ d, isDigit c = true) (hr : r.takeWhile isDigit = []) :
    (d ++ r).takeWhile isDigit = d ∧ (d ++ r).dropWhile isDigit = r := by
  have hr2 : r.dropWhile isDigit = r := by
    have := List.takeWhile_append_dropWhile (p := isDigit) (l := r)
    rw [hr, List.nil_append] at this
    exact this
  constructor
  · rw [List.takeWhile_append_of_pos hd, hr, List.append_nil]
  · rw [List.dropWhile_append_of_pos hd, hr2]

theorem dec_alone (n : Nat) : (dec n).takeWhile isDigit = dec n ∧ (dec n).dropWhile isDigit = [] := by
  have := take_digits (r := []) (dec_isDigit n) rfl
  rwa [List.append_nil] at this

theorem digits_not {d r s : List Nat} (hd : ∀ c ∈ d, isDigit c = true) (h0 : d ≠ []) (hs : s.takeWhile isDigit = []) :
    d ++ r ≠ s := by
  intro h
  cases d with
  | nil => exact h0 rfl
  | cons c d =>
    rw [← h, List.cons_append, List.takeWhile_cons, if_pos (hd c (List.mem_cons_self))] at hs
    cases hs

theorem read_dec (w n : Nat) : read w (dec n) = some n := by
  obtain ⟨h1, h2⟩ := dec_alone n
  have h3 : ∀ s : List Nat, s.takeWhile isDigit = [] → dec n ≠ s := by
    intro s hs
    have := digits_not (r := []) (dec_isDigit n) (dec_ne_nil n) hs
    rwa [List.append_nil] at this
  unfold Spec.read
  rw [if_neg (fun h => h3 _ (by decide) h.1), if_neg (fun h => h3 _ (by decide) h.1), h1, if_neg (dec_ne_nil n), h2,
    if_pos rfl, digits_dec]

theorem read_product (w n : Nat) : read w (dec n ++ codes "*1024") = some (n * 1024) := by
  obtain ⟨h1, h2⟩ := take_digits (r := codes "*1024") (dec_isDigit n) (by decide)
  have h3 : ∀ s : List Nat, s.takeWhile isDigit = [] → dec n ++ codes "*1024" ≠ s :=
    fun s hs => digits_not (dec_isDigit n) (dec_ne_nil n) hs
  unfold Spec.read
  rw [if_neg (fun h => h3 _ (by decide) h.1), if_neg (fun h => h3 _ (by decide) h.1), h1, if_neg (dec_ne_nil n), h2,
    if_neg (by decide), if_pos (by rfl), digits_dec]

theorem str_reads {w lim : Nat} (hw : w = 8 ∨ w = 4) {s : List Nat} (h : str w lim = some s) : read w s = some lim := by
  unfold str at h
  split at h
  · rename_i hm
    cases h
    rcases hw with h | h <;> subst h <;> rw [hm] <;> decide
  · split at h
    · rename_i hm
      cases h
      rw [read_product]
      congr 1
      omega
    · cases h

theorem commented {w lim : Nat} {s : List Nat} (h : read w s = some lim) :
    readCommented w (dec lim ++ (codes " /* " ++ s ++ codes " */")) = some lim := by
  obtain ⟨h1, h2⟩ := take_digits (r := codes " /* " ++ s ++ codes " */") (dec_isDigit lim)
    (by rw [List.append_assoc]; rfl)
  unfold readCommented
  rw [h1, h2, if_neg (by simp [codes]), read_dec]
  have hc : ((codes " /* " ++ s ++ codes " */").drop 4).take ((codes " /* " ++ s ++ codes " */").length - 7) = s := by
    have e1 : (codes " /* ").length = 4 := by decide
    have e2 : (codes " */").length = 3 := by decide
    rw [List.append_assoc, List.drop_left' e1, List.length_append, List.length_append, e1, e2]
    exact List.take_left' (by omega)
  simp only [hc]
  rw [if_pos ⟨rfl, h⟩]

/-- **A limit is shown exactly**: whatever the style, a reader finds the limit in the text, and no other. -/
theorem limit_exact (st : Style) {w lim : Nat} (hw : w = 8 ∨ w = 4) : readStyle st w (text st w lim) = some lim := by
  unfold text
  cases hs : str w lim with
  | none =>
    simp only [true_or, if_true, List.append_nil]
    cases st
    · simp only [readStyle]
      rw [if_pos ⟨dec_ne_nil lim, List.all_eq_true.mpr (dec_isDigit lim)⟩, digits_dec]
    · exact read_dec w lim
    · simp only [readStyle]
      unfold readCommented
      rw [(dec_alone lim).2, if_pos rfl, read_dec]
  | some s =>
    have hr := str_reads hw hs
    cases st
    · simp only [readStyle, ne_eq, reduceCtorEq, not_false_eq_true, or_true, if_true, List.append_nil]
      rw [if_pos ⟨dec_ne_nil lim, List.all_eq_true.mpr (dec_isDigit lim)⟩, digits_dec]
    · simpa [readStyle] using hr
    · simp only [readStyle, ne_eq, reduceCtorEq, not_false_eq_true, or_true, if_true]
      exact commented hr

/-- Two limits that are shown alike are the same. -/
theorem limit_injective (st : Style) {w a b : Nat} (hw : w = 8 ∨ w = 4) (h : text st w a = text st w b) : a = b := by
  have ha := limit_exact st (lim := a) hw
  rw [h, limit_exact st hw] at ha
  exact (Option.some.inj ha).symm

/-- **The largest number is shown by its name**, and multiples of 1024 as products, unless names are not asked for. -/
theorem limit_named (w : Nat) :
    text .abbrev_ w (256 ^ w - 1) = infinity w
    ∧ (∀ k, 1 < k → k * 1024 < 256 ^ w - 1 → text .abbrev_ w (k * 1024) = dec k ++ codes "*1024")
    ∧ ∀ lim, text .raw w lim = dec lim := by
  refine ⟨?_, ?_, ?_⟩
  · simp [text, str]
  · intro k hk hlt
    have h1 : ¬ k * 1024 = 256 ^ w - 1 := by omega
    have h2 : k * 1024 > 1024 ∧ k * 1024 % 1024 = 0 := ⟨by omega, by omega⟩
    have hs : str w (k * 1024) = some (dec k ++ codes "*1024") := by
      unfold str
      rw [if_neg h1, if_pos h2, Nat.mul_div_cancel _ (by decide)]
    simp [text, hs]
  · intro lim
    unfold text
    cases str w lim <;> simp

/-- **The text of a product fits in its buffer**, with the character that ends it (resource.c:27 and 69). -/
theorem product_fits {w lim : Nat} (hw : w = 8 ∨ w = 4) (hl : lim < 256 ^ w) :
    (dec (lim / 1024) ++ codes "*1024").length + 1 ≤ w * 3 + 6 := by
  have e : (codes "*1024").length = 5 := by decide
  rw [List.length_append, e]
  rcases hw with h | h <;> subst h
  · have := dec_length_le (lim / 1024) 17 (by decide) (by
      have : lim / 1024 < 256 ^ 8 / 1024 + 1 := by omega
      calc lim / 1024 < 256 ^ 8 / 1024 + 1 := this
        _ ≤ 10 ^ 17 := by decide)
    omega
  · have := dec_length_le (lim / 1024) 7 (by decide) (by
      have : lim / 1024 < 256 ^ 4 / 1024 + 1 := by omega
      calc lim / 1024 < 256 ^ 4 / 1024 + 1 := this
        _ ≤ 10 ^ 7 := by decide)
    omega

/-! ## The calls -/

theorem umoven_len {m : Mem} : ∀ {n a : Nat} {l : List Nat}, umoven m a n = some l → l.length = n
  | 0, _, _, h => by cases h; rfl
  | n + 1, a, l, h => by
    simp only [umoven] at h
    split at h
    · rename_i b t hb ht
      cases h
      rw [List.length_cons, umoven_len ht]
    · cases h

theorem limits_shown {c : Call} {m : Mem} {a w : Nat} (hv : c.verbose = true) (hw : w = 8 ∨ w = 4) :
    Limits c.style m a w (limits c m false a w) := by
  constructor
  · intro h
    obtain ⟨l, hl, -⟩ := Prctl.umoven_le (m := m) (n := 2 * w) (a := a) h.2
    refine ⟨_, _, by rw [limits, if_pos ⟨h.1, hv, rfl⟩, hl], ?_, ?_⟩
    · rw [limit_exact _ hw]
      congr 1
      exact Memc.number_word (Memc.umoven_part (k := 0) hl (by omega))
    · rw [limit_exact _ hw]
      congr 1
      have h2 := Memc.umoven_part (k := w) (w := w) hl (by omega)
      rw [List.take_of_length_le] at h2
      · exact Memc.number_word h2
      · rw [List.length_drop]
        have := umoven_len hl
        omega
  · intro h
    unfold limits
    split
    · rename_i h'
      rw [Prctl.umoven_none (fun h2 => h ⟨h'.1, h2⟩)]
    · rfl

theorem limits_failed (c : Call) (m : Mem) (a w : Nat) : limits c m true a w = .addr a := by
  simp [limits]

theorem width_cases (c : Call) : width c = 8 ∨ width c = 4 := by
  unfold width; split
  · exact Or.inr rfl
  · exact Or.inl rfl

theorem is_int (a : Nat) : IsInt a (int a) := Memc.is_int a

/-- **setrlimit shows the limits that it sets**, as they are when it begins, whether it fails or not; each has 4 bytes for
programs of i386 and 8 for others. -/
theorem set_limits {c : Call} (hv : c.verbose = true) (hk : c.klong = 8 ∨ c.klong = 4) :
    ∃ t, run .setrlimit c = [.num (c.arg 0 % 2 ^ 32), t] ∧ Limits c.style c.before (c.arg 1) c.klong t := by
  have hw : width c = c.klong := by unfold width; rcases hk with h | h <;> rw [h] <;> rfl
  exact ⟨_, rfl, hw ▸ limits_shown hv (width_cases c)⟩

/-- **getrlimit shows the limits that it has got**, and their address if it has failed. -/
theorem get_limits {c : Call} (hv : c.verbose = true) (hk : c.klong = 8 ∨ c.klong = 4) :
    ∃ t, run .getrlimit c = [.num (c.arg 0 % 2 ^ 32), t]
      ∧ (c.failed = false → Limits c.style c.after (c.arg 1) c.klong t) ∧ (c.failed = true → t = .addr (c.arg 1)) := by
  have hw : width c = c.klong := by unfold width; rcases hk with h | h <;> rw [h] <;> rfl
  refine ⟨_, rfl, fun hf => ?_, fun hf => ?_⟩
  · rw [hf, hw]
    exact limits_shown hv hk
  · rw [hf, limits_failed]

/-- **prlimit64 shows the new limits as they are when it begins, and the old ones as it has left them**: all have 8 bytes,
whatever the program. -/
theorem both_limits {c : Call} (hv : c.verbose = true) :
    ∃ p new old, run .prlimit64 c = [.pid p, .num (c.arg 1 % 2 ^ 32), new, old] ∧ IsInt (c.arg 0) p
      ∧ Limits c.style c.before (c.arg 2) 8 new
      ∧ (c.failed = false → Limits c.style c.after (c.arg 3) 8 old) ∧ (c.failed = true → old = .addr (c.arg 3)) := by
  refine ⟨_, _, _, rfl, is_int _, limits_shown hv (Or.inl rfl), fun hf => ?_, fun hf => ?_⟩
  · rw [hf]
    exact limits_shown hv (Or.inl rfl)
  · rw [hf, limits_failed]

/-- **The identifier of a priority is shown as what the kind of priority makes it**: that of a process (0), of a group of
processes (1), or a number; the calls show the same of it, and setpriority the priority with its sign. -/
theorem priorities (c : Call) :
    ∃ v w p, IsInt (c.arg 0) v ∧ IsInt (c.arg 1) w ∧ IsInt (c.arg 2) p ∧ ∃ t,
      run .getpriority c = [.num (c.arg 0 % 2 ^ 32), t] ∧ run .setpriority c = [.num (c.arg 0 % 2 ^ 32), t, .int p]
      ∧ (v = 0 → t = .pid w) ∧ (v = 1 → t = .pgid w) ∧ (v ≠ 0 → v ≠ 1 → t = .int w) := by
  refine ⟨_, _, _, is_int _, is_int _, is_int _, _, rfl, rfl, ?_, ?_, ?_⟩
  · intro h; simp [who, h]
  · intro h; simp [who, h]
  · intro h h'; simp [who, h, h']

/-! ## Concrete cases -/

def aCall : Call := ⟨fun i => if i = 1 then 64 else if i = 0 then 7 else 0, fun a => some (if a % 8 = 1 then 8 else 0),
  fun _ => some 255, false, true, .abbrev_, 8⟩

example : run .setrlimit aCall = [.num 7, .limits (codes "2*1024") (codes "2*1024")] := by
  have h2 : dec 2 = [50] := by unfold dec; rfl
  have h : text .abbrev_ 8 (2 * 1024) = codes "2*1024" := by
    rw [(limit_named 8).2.1 2 (by decide) (by decide), h2]; rfl
  show [Tok.num 7, .limits (text .abbrev_ 8 (2 * 1024)) (text .abbrev_ 8 (2 * 1024))] = _
  rw [h]
example : run .getrlimit { aCall with klong := 4 } = [.num 7, .limits (codes "RLIM_INFINITY") (codes "RLIM_INFINITY")] := by
  have h := (limit_named 4).1
  show [Tok.num 7, .limits (text .abbrev_ 4 (256 ^ 4 - 1)) (text .abbrev_ 4 (256 ^ 4 - 1))] = _
  rw [h]; rfl
example : text .abbrev_ 8 1024 ≠ codes "1*1024" := by
  intro h
  have h2 : text .abbrev_ 8 1024 = dec 1024 := by simp [text, str]
  have h4 := dec_isDigit 1024 42 (by rw [h2] at h; rw [h]; decide)
  revert h4; decide

end Strace.Lim
