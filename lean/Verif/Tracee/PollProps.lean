import Verif.Tracee.PollSpec
import Verif.Show.DumpProps
import Mathlib.Tactic.IntervalCases
/-!
C84: the result text of poll
-/
namespace Strace.Tracee
open Strace.Base Strace.Show

/-! ### numbers -/

theorem dec_toDigits (n : Nat) : (dec n).map Char.ofNat = Nat.toDigits 10 n := by
  induction n using Nat.strongRecOn with
  | ind n ih =>
    unfold dec
    by_cases h : n < 10
    · rw [dif_pos h, Nat.toDigits_of_lt_base h]
      interval_cases n <;> rfl
    · rw [dif_neg h, List.map_append, ih (n / 10) (by omega), Nat.toDigits_of_base_le (b := 10) (n := n) (by decide) (by omega)]
      have : n % 10 < 10 := Nat.mod_lt _ (by decide)
      generalize n % 10 = r at *
      interval_cases r <;> rfl

theorem intText_eq (i : Int) : intText i = (toString i).toList := by
  unfold intText
  rw [dec_toDigits]
  cases i with
  | ofNat m =>
    rw [if_neg (by simp)]
    show _ = (toString (Int.ofNat m)).toList
    simp [toString, Int.repr, Nat.repr]
  | negSucc m =>
    rw [if_pos (by simp)]
    simp [toString, Int.repr, Nat.repr]

theorem intText_length (i : Int) (h1 : -2 ^ 31 ≤ i) (h2 : i < 2 ^ 31) : (intText i).length ≤ 11 := by
  have := dec_length_le i.natAbs 10 (by decide) (by omega)
  unfold intText
  split <;> simp <;> omega

theorem hexText_length (n : Nat) (h : n < 2 ^ 64) : (hexText n).length ≤ 18 := by
  have := (hexNum_spec n).2.2 15 (by omega)
  simp [hexText]; omega

/-! ### the text so far -/

/-- the text in the buffer after some items -/
def stateText : List (List Char) → List Char
  | [] => []
  | x :: xs => '[' :: List.intercalate ", ".toList (x :: xs)

theorem intercalate_snoc (sep : List Char) (x y : List Char) (xs : List (List Char)) :
    List.intercalate sep (x :: xs ++ [y]) = List.intercalate sep (x :: xs) ++ sep ++ y := by
  induction xs generalizing x with
  | nil => simp [List.intercalate]
  | cons z zs ih =>
    have := ih z
    simp only [List.cons_append, List.intercalate, List.intersperse, List.flatten_cons] at this ⊢
    rw [this]
    simp

/-- what is in front of the next item -/
def sepText (xs : List (List Char)) : List Char := if xs.isEmpty then ['['] else ", ".toList

theorem stateText_snoc (xs : List (List Char)) (y : List Char) : stateText (xs ++ [y]) = stateText xs ++ sepText xs ++ y := by
  cases xs with
  | nil => simp [stateText, sepText, List.intercalate]
  | cons x xs =>
    show '[' :: List.intercalate ", ".toList (x :: xs ++ [y]) = _
    rw [intercalate_snoc]
    simp [stateText, sepText]

theorem stateText_nil (xs : List (List Char)) : stateText xs = [] ↔ xs = [] := by
  cases xs <;> simp [stateText]

theorem sepText_length (xs : List (List Char)) : (sepText xs).length ≤ 2 := by
  unfold sepText; split <;> simp

theorem sepOrOpen_eq (xs : List (List Char)) (h : (stateText xs).length ≤ 1000) :
    sepOrOpen (stateText xs) = some (stateText xs ++ sepText xs) := by
  unfold sepOrOpen sepText
  cases xs with
  | nil => simp [stateText, put1]
  | cons x xs =>
    rw [if_neg (by simp [stateText])]
    unfold copy
    rw [if_pos (by simp at h ⊢; omega)]
    simp

theorem copy_fits {o t : List Char} (h : o.length + t.length < 1024) : copy o t = some (o ++ t) := by
  unfold copy; rw [if_pos h]

theorem put1_fits {o : List Char} {c : Char} (h : o.length < 1024) : put1 o c = some (o ++ [c]) := by
  unfold put1; rw [if_pos h]

theorem fdText_eq (fd : Int) (h1 : -2 ^ 31 ≤ fd) (h2 : fd < 2 ^ 31) :
    fdText fd = some ("{fd=".toList ++ intText fd ++ ", revents=".toList) := by
  unfold fdText
  have := intText_length fd h1 h2
  rw [if_pos (by simp; omega)]

theorem pollItem_eq (flags : Nat → List Char) (e : Pfd) (o : List Char) (h1 : -2 ^ 31 ≤ e.fd) (h2 : e.fd < 2 ^ 31)
    (ho : o.length ≤ 1000) :
    pollItem flags e o =
      some (if (o ++ entryText flags e).length < 997 then (o ++ entryText flags e, true) else (o ++ "...".toList, false)) := by
  have hlen : (o ++ entryText flags e).length =
      o.length + ("{fd=".toList ++ intText e.fd ++ ", revents=".toList).length + (flags e.revents).length + 1 := by
    unfold entryText
    rw [intText_eq]
    simp only [List.length_append]
    simp
    omega
  unfold pollItem
  rw [fdText_eq _ h1 h2]
  dsimp only
  rw [hlen]
  by_cases hc : o.length + ("{fd=".toList ++ intText e.fd ++ ", revents=".toList).length + (flags e.revents).length + 1 < 997
  · rw [if_neg (by omega), if_pos hc, copy_fits (by omega)]
    dsimp only
    rw [copy_fits (by rw [List.length_append]; omega)]
    dsimp only
    rw [put1_fits (by rw [List.length_append, List.length_append]; omega)]
    unfold entryText
    rw [← intText_eq]
    simp
  · rw [if_pos (by omega), if_neg hc, copy_fits (by simp; omega)]
    rfl

/-! ### the loop -/

theorem Holds.tail {mem : Nat → Option Pfd} {cur n : Nat} {e : Pfd} {es : List Pfd} {bad : Option Nat}
    (h : Holds mem cur (n + 1) (e :: es) bad) : Holds mem (cur + 8) n es bad := by
  have hl := h.le
  rw [List.length_cons] at hl
  refine ⟨by omega, ?_, ?_, ?_⟩
  · intro i hi
    have := h.read (i + 1) (by simp; omega)
    rw [show cur + 8 + 8 * i = cur + 8 * (i + 1) by omega, this]
    rfl
  · intro hlt
    have := h.unread (by simp; omega)
    rw [List.length_cons] at this
    rw [show cur + 8 + 8 * es.length = cur + 8 * (es.length + 1) by omega, this]
  · rw [h.bad_eq, List.length_cons]
    by_cases hlt : es.length < n
    · rw [if_pos hlt, if_pos (by omega)]; congr 1; omega
    · rw [if_neg hlt, if_neg (by omega)]

theorem truncates_iff (limit : Option Nat) (n : Nat) (h : n < 2 ^ 32) (hl : ∀ m, limit = some m → n ≤ m + 1) :
    truncates limit n = true ↔ ∃ m, limit = some m ∧ n = m + 1 := by
  unfold truncates
  cases limit with
  | none => simp
  | some m =>
    have := hl m rfl
    rw [Nat.mod_eq_of_lt h]
    simp
    omega

theorem loop_text (limit : Option Nat) (flags : Nat → List Char) (mem : Nat → Option Pfd) (bad : Option Nat)
    (hfd : ∀ a e, mem a = some e → -2 ^ 31 ≤ e.fd ∧ e.fd < 2 ^ 31) :
    ∀ (n : Nat) (es : List Pfd) (cur : Nat) (xs : List (List Char)), Holds mem cur n es bad → cur + 8 * n < 2 ^ 64 →
      (stateText xs).length ≤ 996 → xs.length + n < 2 ^ 32 → (∀ m, limit = some m → xs.length ≤ m) →
      ∃ k, k ≤ (ready es).length ∧
        pollLoop limit flags mem (cur + 8 * n) (n + 1) cur xs.length (stateText xs) =
          some (stateText (xs ++ itemsShown flags es k bad)) ∧
        (∀ m, limit = some m → xs.length + k ≤ m) ∧
        (k < (ready es).length → limit = some (xs.length + k) ∨
          997 ≤ (stateText (xs ++ ((ready es).take (k + 1)).map (entryText flags))).length) ∧
        (stateText (xs ++ itemsShown flags es k bad)).length ≤ 1016 := by
  intro n
  induction n with
  | zero =>
    intro es cur xs hh hc hs hx hl
    have : es = [] := List.length_eq_zero_iff.1 (by have := hh.le; omega)
    subst this
    have hb : bad = none := by rw [hh.bad_eq]; rfl
    subst hb
    refine ⟨0, by simp, ?_, by simpa using hl, by simp [ready], by simp [itemsShown, ready]; omega⟩
    unfold pollLoop
    rw [if_neg (by omega)]
    simp [itemsShown, ready]
  | succ n ih =>
    intro es cur xs hh hc hs hx hl
    unfold pollLoop
    rw [if_pos (by omega)]
    cases es with
    | nil =>
      have hm : mem cur = none := by have := hh.unread (by simp); simpa using this
      have hb : bad = some cur := by rw [hh.bad_eq]; simp
      subst hb
      rw [hm]
      dsimp only
      have h1 := hexText_length cur (by omega)
      have h2 := sepText_length xs
      refine ⟨0, by simp, ?_, by simpa using hl, by simp [ready], ?_⟩
      · rw [sepOrOpen_eq _ (by omega)]
        dsimp only [Option.bind_some]
        rw [copy_fits (by rw [List.length_append]; omega)]
        simp [itemsShown, ready, stateText_snoc]
      · simp [itemsShown, ready, stateText_snoc]; omega
    | cons e es =>
      have hm : mem cur = some e := by have := hh.read 0 (by simp); simpa using this
      rw [hm]
      dsimp only
      rw [Nat.mod_eq_of_lt (by omega : cur + 8 < 2 ^ 64)]
      have hstop : cur + 8 * (n + 1) = cur + 8 + 8 * n := by omega
      by_cases hr : e.revents = 0
      · rw [if_pos hr]
        have hready : ready (e :: es) = ready es := by simp [ready, hr]
        obtain ⟨k, hk⟩ := ih es (cur + 8) xs hh.tail (by omega) hs (by omega) hl
        refine ⟨k, ?_⟩
        unfold itemsShown at hk ⊢
        rw [hready, hstop]
        exact hk
      · rw [if_neg hr, sepOrOpen_eq _ (by omega)]
        dsimp only
        have hready : ready (e :: es) = e :: ready es := by simp [ready, hr]
        have h2 := sepText_length xs
        by_cases ht : truncates limit (xs.length + 1) = true
        · rw [if_pos ht]
          obtain ⟨m, hm1, hm2⟩ := (truncates_iff limit (xs.length + 1) (by omega)
            (fun m h => by have := hl m h; omega)).1 ht
          have hm2 : m = xs.length := by omega
          subst hm2
          refine ⟨0, by simp, ?_, by simpa using hl, fun _ => Or.inl (by simpa using hm1), ?_⟩
          · rw [copy_fits (by simp; omega)]
            simp [itemsShown, hready, stateText_snoc]
          · simp [itemsShown, hready, stateText_snoc]; omega
        · rw [if_neg ht, pollItem_eq _ _ _ (hfd _ _ hm).1 (hfd _ _ hm).2 (by rw [List.length_append]; omega)]
          dsimp only
          have hsn : stateText xs ++ sepText xs ++ entryText flags e = stateText (xs ++ [entryText flags e]) :=
            (stateText_snoc _ _).symm
          rw [hsn]
          by_cases hf : (stateText (xs ++ [entryText flags e])).length < 997
          · rw [if_pos hf]
            dsimp only
            rw [if_pos rfl]
            have hl' : ∀ m, limit = some m → (xs ++ [entryText flags e]).length ≤ m := by
              intro m h
              have h3 := hl m h
              rw [truncates_iff limit (xs.length + 1) (by omega) (fun m h => by have := hl m h; omega)] at ht
              by_cases he : xs.length + 1 = m + 1
              · exact absurd ⟨m, h, he⟩ ht
              · simp; omega
            obtain ⟨k, k1, k2, k3, k4, k5⟩ := ih es (cur + 8) (xs ++ [entryText flags e]) hh.tail (by omega) (by omega)
              (by simp; omega) hl'
            have hitems : itemsShown flags (e :: es) (k + 1) bad = entryText flags e :: itemsShown flags es k bad := by
              unfold itemsShown
              rw [hready]
              simp
            rw [List.length_append, List.length_singleton] at k2 k3 k4
            refine ⟨k + 1, by rw [hready]; simpa using k1, ?_, ?_, ?_, ?_⟩
            · rw [hstop, k2, hitems]; simp
            · intro m h; have := k3 m h; omega
            · intro hlt
              rw [hready, List.length_cons] at hlt
              rcases k4 (by omega) with h | h
              · left; rw [h]; congr 1; omega
              · right; rw [hready, List.take_succ_cons, List.map_cons]; simpa using h
            · rw [hitems]; simpa using k5
          · rw [if_neg hf]
            dsimp only
            rw [if_neg (by decide)]
            refine ⟨0, by simp, ?_, by simpa using hl, fun _ => Or.inr ?_, ?_⟩
            · simp [itemsShown, hready, stateText_snoc]
            · rw [hready]; simpa using hf
            · simp [itemsShown, hready, stateText_snoc]; omega

theorem bracketed_eq (xs : List (List Char)) : bracketed xs = if stateText xs = [] then [] else stateText xs ++ [']'] := by
  cases xs with
  | nil => simp [bracketed, stateText]
  | cons x xs => simp [bracketed, stateText]

/-- C84: after a poll that found something the elements with events are shown in order, as many of them as the limit and
the buffer allow and all of them if both do, then dots if some are left out or else the address that could not be read, and
the time left; and the text fits in the buffer, whatever the array holds. -/
theorem poll_shown (limit : Option Nat) (flags : Nat → List Char) (mem : Nat → Option Pfd) (start n rval : Nat)
    (es : List Pfd) (bad : Option Nat) (left : Option (List Char))
    (hfd : ∀ a e, mem a = some e → -2 ^ 31 ≤ e.fd ∧ e.fd < 2 ^ 31)
    (hh : Holds mem start n es bad) (hs : start ≠ 0) (hn : n ≠ 0) (hn' : n < 2 ^ 32) (he : start + 8 * n < 2 ^ 64)
    (hr : rval ≠ 0) :
    ∃ k, k ≤ (ready es).length ∧ (∀ m, limit = some m → k ≤ m) ∧
      (k < (ready es).length → limit = some k ∨
        998 ≤ (bracketed (((ready es).take (k + 1)).map (entryText flags))).length) ∧
      pollExit limit flags mem true start n rval left =
        some (auxOf (bracketed (itemsShown flags es k bad) ++ leftText (bracketed (itemsShown flags es k bad)) left)) ∧
      (bracketed (itemsShown flags es k bad) ++ leftText (bracketed (itemsShown flags es k bad)) left).length < 1024 := by
  obtain ⟨k, k1, k2, k3, k4, k5⟩ := loop_text limit flags mem bad hfd n es start [] hh he (by simp [stateText])
    (by simpa using hn') (by simp)
  have hnil : stateText [] = [] := rfl
  simp only [List.nil_append, List.length_nil, Nat.zero_add, hnil] at k2 k3 k4 k5
  have hb := bracketed_eq (itemsShown flags es k bad)
  have hlen : (bracketed (itemsShown flags es k bad)).length ≤ 1017 := by
    rw [hb]; split
    · simp
    · simp; omega
  have hclose : pollClose (stateText (itemsShown flags es k bad)) = some (bracketed (itemsShown flags es k bad)) := by
    rw [hb]
    unfold pollClose
    by_cases h0 : stateText (itemsShown flags es k bad) = []
    · rw [if_pos h0, if_neg (by simpa using h0), h0]
    · rw [if_neg h0, if_pos h0, put1_fits (by omega)]
      dsimp only [Option.bind_some]
      rw [if_pos (by simp; omega)]
  have hleft : pollLeft left (bracketed (itemsShown flags es k bad)) =
        some (bracketed (itemsShown flags es k bad) ++ leftText (bracketed (itemsShown flags es k bad)) left) ∧
      (bracketed (itemsShown flags es k bad) ++ leftText (bracketed (itemsShown flags es k bad)) left).length < 1024 := by
    generalize bracketed (itemsShown flags es k bad) = b at hlen
    unfold pollLeft leftText
    cases left with
    | none => simp; omega
    | some t =>
      dsimp only
      by_cases hc : b.length + t.length < 1016
      · rw [if_pos (by omega), if_pos hc]
        cases b with
        | nil =>
          simp only [List.length_nil] at hc
          rw [if_pos rfl, copy_fits (by simp)]
          dsimp only [Option.bind_some]
          rw [copy_fits (by simp; omega)]
          constructor
          · simp
          · simp; omega
        | cons x b =>
          simp only [List.length_cons] at hc
          rw [if_neg (by simp), copy_fits (by simp; omega)]
          dsimp only [Option.bind_some]
          rw [copy_fits (by simp; omega)]
          constructor
          · simp
          · simp; omega
      · rw [if_neg (by omega), if_neg hc, copy_fits (by simp; omega)]
        exact ⟨rfl, by simp; omega⟩
  refine ⟨k, k1, k3, ?_, ?_, hleft.2⟩
  · intro hlt
    rcases k4 hlt with h | h
    · exact Or.inl h
    · right
      rw [bracketed_eq, if_neg (by intro h0; rw [h0] at h; simp at h)]
      rw [List.length_append, List.length_singleton]; omega
  · unfold pollExit
    dsimp only
    rw [Nat.mod_eq_of_lt (by omega : 8 * n < 2 ^ 64), Nat.mod_eq_of_lt he, if_neg hr,
      if_neg (by simp; omega), k2]
    dsimp only [Option.bind_some]
    rw [hclose]
    dsimp only [Option.bind_some]
    rw [hleft.1]
    dsimp only [auxOf]
    congr 1
    simp only [List.isEmpty_iff]

/-- C84: a poll that found nothing says so -/
theorem poll_timeout (limit : Option Nat) (flags : Nat → List Char) (mem : Nat → Option Pfd) (verb : Bool) (start n : Nat)
    (left : Option (List Char)) : pollExit limit flags mem verb start n 0 left = some (.text "Timeout".toList) := rfl

/-- Nothing is shown if the array is not to be looked at, is absent or empty, or does not fit into the address space. -/
theorem poll_nothing (limit : Option Nat) (flags : Nat → List Char) (mem : Nat → Option Pfd) (verb : Bool) (start n rval : Nat)
    (left : Option (List Char)) (hr : rval ≠ 0) (hn : n < 2 ^ 64) (hs : start < 2 ^ 64)
    (h : verb = false ∨ start = 0 ∨ n = 0 ∨ 2 ^ 64 ≤ start + 8 * n) : pollExit limit flags mem verb start n rval left = some .nothing := by
  unfold pollExit
  rw [if_neg hr]
  rw [if_pos]
  rcases h with h | h | h | h
  · exact Or.inl h
  · exact Or.inr (Or.inl h)
  · exact Or.inr (Or.inr (Or.inl h))
  · right; right; right; omega

/-- names for two events -/
def exFlags (r : Nat) : List Char := if r = 1 then "POLLIN".toList else if r = 4 then "POLLOUT".toList else "0x10".toList

/-- an array in memory -/
def exMem (es : List Pfd) (a : Nat) : Option Pfd := if 4096 ≤ a ∧ a % 8 = 0 then es[(a - 4096) / 8]? else none

example : pollExit (some 32) exFlags (exMem [⟨3, 1⟩, ⟨4, 0⟩, ⟨-7, 4⟩]) true 4096 3 2 (some "{tv_sec=1, tv_nsec=0}".toList) =
    some (.text "[{fd=3, revents=POLLIN}, {fd=-7, revents=POLLOUT}], left {tv_sec=1, tv_nsec=0}".toList) := by decide +kernel

example : pollExit (some 1) exFlags (exMem [⟨3, 1⟩, ⟨4, 0⟩, ⟨5, 4⟩]) true 4096 3 2 none =
    some (.text "[{fd=3, revents=POLLIN}, ...]".toList) := by decide +kernel

/-- the hypotheses are met, also by an array whose end cannot be read -/
example : Holds (exMem [⟨3, 1⟩, ⟨4, 0⟩, ⟨5, 4⟩]) 4096 4 [⟨3, 1⟩, ⟨4, 0⟩, ⟨5, 4⟩] (some 4120) := by
  refine ⟨by decide, ?_, fun _ => by decide +kernel, by decide⟩
  intro i hi
  have hi : i < 3 := hi
  interval_cases i <;> rfl

example : pollExit none exFlags (exMem [⟨3, 1⟩, ⟨4, 0⟩, ⟨5, 4⟩]) true 4096 4 2 none =
    some (.text "[{fd=3, revents=POLLIN}, {fd=5, revents=POLLOUT}, 0x1018]".toList) := by decide +kernel

end Strace.Tracee
