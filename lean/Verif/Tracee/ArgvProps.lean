import Verif.Tracee.ArgvSpec
import Mathlib.Tactic.IntervalCases
/-!
C85: arguments and environment of execve
-/
namespace Strace.Tracee
open Strace.Show (truncates)

/-- every memory holds an array at every address: the theorems below apply to all -/
theorem vector_total (mem : Nat → Option Nat) (w : Nat) (hw : 0 < w) : ∀ (d a : Nat), a < 2 ^ 64 → 2 ^ 64 - a ≤ d →
    ∃ ws e, Vector mem w a ws e ∧ ws.length ≤ d := by
  intro d
  induction d with
  | zero => intro a ha hd; omega
  | succ d ih =>
    intro a ha hd
    cases hm : mem a with
    | none => exact ⟨[], .fault a, ⟨by simp, by simp, by simp [hm]; omega⟩, by simp⟩
    | some p =>
      by_cases hp : p = 0
      · subst hp
        exact ⟨[], .null, ⟨by simp, by simp, by simpa [hm] using ha⟩, by simp⟩
      · by_cases hlt : a + w < 2 ^ 64
        · obtain ⟨ws, e, hv, hl⟩ := ih (a + w) hlt (by omega)
          have hmul : ∀ i, a + w * (i + 1) = a + w + w * i := by intro i; rw [Nat.mul_add]; omega
          refine ⟨p :: ws, e, ⟨?_, ?_, ?_⟩, by simp; omega⟩
          · intro i hi
            cases i with
            | zero => simpa using ha
            | succ i => rw [hmul]; exact hv.below i (by simpa using hi)
          · intro i hi
            cases i with
            | zero => simpa [hm] using hp
            | succ i => rw [hmul]; exact hv.read i (by simpa using hi)
          · rw [List.length_cons, hmul]; exact hv.ends
        · refine ⟨[p], .fault ((a + w) % 2 ^ 64), ⟨?_, ?_, ?_⟩, by simp⟩
          · intro i hi
            have : i = 0 := by simpa using hi
            subst this; simpa using ha
          · intro i hi
            have : i = 0 := by simpa using hi
            subst this; simpa [hm] using hp
          · simp; omega

theorem Vector.tail {mem : Nat → Option Nat} {w a p : Nat} {ws : List Nat} {e : Ending} (h : Vector mem w a (p :: ws) e)
    (hlt : a + w < 2 ^ 64) : Vector mem w (a + w) ws e := by
  have hmul : ∀ i, a + w * (i + 1) = a + w + w * i := by intro i; rw [Nat.mul_add]; omega
  refine ⟨?_, ?_, ?_⟩
  · intro i hi
    rw [← hmul]; exact h.below (i + 1) (by simp; omega)
  · intro i hi
    rw [← hmul]; exact h.read (i + 1) (by simp; omega)
  · have := h.ends
    rw [List.length_cons, hmul] at this
    exact this

theorem Vector.head {mem : Nat → Option Nat} {w a p : Nat} {ws : List Nat} {e : Ending} (h : Vector mem w a (p :: ws) e) :
    a < 2 ^ 64 ∧ mem a = some p ∧ p ≠ 0 := by
  have h1 := h.below 0 (by simp)
  have h2 := h.read 0 (by simp)
  simp only [Nat.mul_zero, Nat.add_zero, List.getElem_cons_zero] at h1 h2
  exact ⟨h1, h2⟩

/-- the array ends when the next address is not in the address space -/
theorem Vector.wrap {mem : Nat → Option Nat} {w a p : Nat} {ws : List Nat} {e : Ending} (h : Vector mem w a (p :: ws) e)
    (hge : 2 ^ 64 ≤ a + w) : ws = [] ∧ e = .fault ((a + w) % 2 ^ 64) := by
  have hw : ws = [] := by
    cases ws with
    | nil => rfl
    | cons q ws => have := h.below 1 (by simp); omega
  subst hw
  refine ⟨rfl, ?_⟩
  have := h.ends
  cases e with
  | null => simp at this; omega
  | fault b =>
    simp only [List.length_singleton, Nat.mul_one] at this
    rw [this.1]

/-- what is printed after the first `n` items -/
def restToks (limit : Option Nat) (n : Nat) (ws : List Nat) (e : Ending) : List ATok :=
  (argItems (limit.map (· - n)) ws e).flatMap (fun it => .next :: it) ++ [.closed]

theorem truncates_some (limit : Option Nat) (n : Nat) (h : n < 2 ^ 32) :
    truncates limit n = true ↔ ∃ m, limit = some m ∧ m < n := by
  unfold truncates
  cases limit with
  | none => simp
  | some m => rw [Nat.mod_eq_of_lt h]; simp

theorem items_cut (limit : Option Nat) (n p : Nat) (ws : List Nat) (e : Ending) (m : Nat) (hl : limit = some m) (hm : m ≤ n) :
    argItems (limit.map (· - n)) (p :: ws) e = [[.more]] := by
  subst hl
  simp [argItems, shownCount, Nat.sub_eq_zero_of_le hm]

theorem items_step (limit : Option Nat) (n p : Nat) (ws : List Nat) (e : Ending) (h : ∀ m, limit = some m → n < m) :
    argItems (limit.map (· - n)) (p :: ws) e = [.str p] :: argItems (limit.map (· - (n + 1))) ws e := by
  cases limit with
  | none => simp [argItems, shownCount]
  | some m =>
    have := h m rfl
    have h1 : shownCount (some (m - n)) (p :: ws) = shownCount (some (m - (n + 1))) ws + 1 := by
      simp only [shownCount, List.length_cons]; omega
    simp only [argItems, Option.map_some, h1]
    simp

theorem argvLoop_rest (limit : Option Nat) (mem : Nat → Option Nat) (w : Nat) (hw : 0 < w) (hw8 : w ≤ 8) (e : Ending) :
    ∀ (ws : List Nat) (fuel prev a n : Nat), Vector mem w a ws e → ws.length < fuel → prev ≤ a → a < 2 ^ 64 → 0 < n →
      n + ws.length < 2 ^ 32 → argvLoop limit mem w fuel prev a n = some (restToks limit n ws e) := by
  intro ws
  induction ws with
  | nil =>
    intro fuel prev a n hv hf hp ha hn hb
    obtain ⟨fuel, rfl⟩ : ∃ k, fuel = k + 1 := ⟨fuel - 1, by simp at hf; omega⟩
    unfold argvLoop
    rw [if_neg (by omega)]
    have := hv.ends
    cases e with
    | null =>
      simp only [List.length_nil, Nat.mul_zero, Nat.add_zero] at this
      rw [this.2]
      dsimp only
      rw [if_pos rfl, if_neg (by omega)]
      simp [restToks, argItems, shownCount]
    | fault b =>
      simp only [List.length_nil, Nat.mul_zero, Nat.add_zero] at this
      rw [Nat.mod_eq_of_lt ha] at this
      rw [this.2.resolve_left (by omega)]
      dsimp only
      rw [if_neg (by omega), this.1]
      simp [restToks, argItems, shownCount]
  | cons p ws ih =>
    intro fuel prev a n hv hf hp ha hn hb
    obtain ⟨fuel, rfl⟩ : ∃ k, fuel = k + 1 := ⟨fuel - 1, by simp at hf; omega⟩
    obtain ⟨-, h1, h2⟩ := hv.head
    rw [List.length_cons] at hb hf
    unfold argvLoop
    rw [if_neg (by omega), h1]
    dsimp only
    rw [if_neg h2]
    by_cases ht : truncates limit (n + 1) = true
    · rw [if_pos ht, if_neg (by omega)]
      obtain ⟨m, hm, hlt⟩ := (truncates_some limit (n + 1) (by omega)).1 ht
      simp [restToks, items_cut limit n p ws e m hm (by omega)]
    · rw [if_neg ht, if_neg (by omega), Nat.mod_eq_of_lt (by omega : n + 1 < 2 ^ 32)]
      have hlim : ∀ m, limit = some m → n < m := by
        intro m hm
        rw [truncates_some limit (n + 1) (by omega)] at ht
        by_cases h : m < n + 1
        · exact absurd ⟨m, hm, h⟩ ht
        · omega
      by_cases hlt : a + w < 2 ^ 64
      · rw [Nat.mod_eq_of_lt hlt, ih fuel a (a + w) (n + 1) (hv.tail hlt) (by omega) (by omega) hlt (by omega) (by omega)]
        simp [restToks, items_step limit n p ws e hlim]
      · obtain ⟨rfl, rfl⟩ := hv.wrap (by omega)
        obtain ⟨fuel, rfl⟩ : ∃ k, fuel = k + 1 := ⟨fuel - 1, by simp at hf; omega⟩
        unfold argvLoop
        rw [if_pos (?_ : (a + w) % 2 ^ 64 < a)]
        · dsimp only
          rw [if_neg (by omega)]
          simp [restToks, items_step limit n p [] _ hlim]
          simp [argItems, shownCount]
        · omega

theorem intercalate_cons (sep : List ATok) (x : List ATok) (xs : List (List ATok)) :
    List.intercalate sep (x :: xs) = x ++ xs.flatMap fun y => sep ++ y := by
  induction xs generalizing x with
  | nil => simp [List.intercalate]
  | cons y ys ih =>
    have := ih y
    simp only [List.intercalate, List.intersperse, List.flatten_cons, List.flatMap_cons] at this ⊢
    rw [this]
    simp

/-- C85: the strings of an array are shown in order, in brackets, all of them if not abbreviating and otherwise as many as
the limit says; dots are shown exactly if strings are left out or the array does not end with NULL.  If not even the first
pointer can be read the address is shown. -/
theorem argv_shown (limit : Option Nat) (mem : Nat → Option Nat) (w a fuel : Nat) (ws : List Nat) (e : Ending)
    (hw : 0 < w) (hw8 : w ≤ 8) (ha : a ≠ 0) (ha' : a < 2 ^ 64) (hv : Vector mem w a ws e) (hl : ws.length < 2 ^ 32)
    (hf : ws.length < fuel) : printargv limit true mem w fuel a = some (argText limit a ws e) := by
  unfold printargv
  rw [if_neg (by simpa using ha)]
  obtain ⟨fuel, rfl⟩ : ∃ k, fuel = k + 1 := ⟨fuel - 1, by omega⟩
  unfold argvLoop
  rw [if_neg (by omega)]
  cases ws with
  | nil =>
    have := hv.ends
    cases e with
    | null =>
      simp only [List.length_nil, Nat.mul_zero, Nat.add_zero] at this
      rw [this.2]
      simp [argText, argItems, shownCount, List.intercalate]
    | fault b =>
      simp only [List.length_nil, Nat.mul_zero, Nat.add_zero] at this
      rw [this.2.resolve_left (by omega)]
      simp [argText]
  | cons p ws =>
    obtain ⟨-, h1, h2⟩ := hv.head
    rw [List.length_cons] at hl hf
    rw [h1]
    dsimp only
    have hmap : limit.map (· - 0) = limit := by cases limit <;> rfl
    have hfirst : ∀ q qs e, argText limit a (q :: qs) e =
        .opened :: List.intercalate [.next] (argItems (limit.map (· - 0)) (q :: qs) e) ++ [.closed] := by
      intro q qs e
      rw [hmap]
      unfold argText
      rw [if_neg (by simp)]
    rw [if_neg h2, hfirst]
    by_cases ht : truncates limit (0 + 1) = true
    · rw [if_pos ht]
      obtain ⟨m, hm, hlt⟩ := (truncates_some limit (0 + 1) (by omega)).1 ht
      rw [items_cut limit 0 p ws e m hm (by omega)]
      rfl
    · rw [if_neg ht]
      have hlim : ∀ m, limit = some m → 0 < m := by
        intro m hm
        rw [truncates_some limit (0 + 1) (by omega)] at ht
        by_cases h : m < 0 + 1
        · exact absurd ⟨m, hm, h⟩ ht
        · omega
      rw [items_step limit 0 p ws e hlim, intercalate_cons]
      by_cases hlt : a + w < 2 ^ 64
      · rw [Nat.mod_eq_of_lt hlt, Nat.mod_eq_of_lt (by omega : 0 + 1 < 2 ^ 32),
          argvLoop_rest limit mem w hw hw8 e ws fuel a (a + w) (0 + 1) (hv.tail hlt) (by omega) (by omega) hlt (by omega)
            (by omega)]
        simp [restToks]
      · obtain ⟨rfl, rfl⟩ := hv.wrap (by omega)
        obtain ⟨fuel, rfl⟩ : ∃ k, fuel = k + 1 := ⟨fuel - 1, by simp at hf; omega⟩
        unfold argvLoop
        rw [if_pos (by omega : (a + w) % 2 ^ 64 < a)]
        simp [argItems, shownCount]

theorem argcLoop_eq (mem : Nat → Option Nat) (w : Nat) (hw : 0 < w) (hw8 : w ≤ 8) (e : Ending) :
    ∀ (ws : List Nat) (fuel prev a n : Nat), Vector mem w a ws e → ws.length < fuel → prev < a → a < 2 ^ 64 →
      (n = 0 ↔ prev = 0) → n + ws.length < 2 ^ 32 →
      ∃ r, argcLoop mem w fuel prev a n = some r ∧
        match r with
        | none => n = 0 ∧ ws = [] ∧ e ≠ .null
        | some (k, a', p') => k = n + ws.length ∧ (a' < p' ↔ e ≠ .null) ∧ (0 < k ∨ e = .null) := by
  intro ws
  induction ws with
  | nil =>
    intro fuel prev a n hv hf hp ha hn hb
    obtain ⟨fuel, rfl⟩ : ∃ k, fuel = k + 1 := ⟨fuel - 1, by simp at hf; omega⟩
    unfold argcLoop
    rw [if_pos (by omega)]
    have := hv.ends
    cases e with
    | null =>
      simp only [List.length_nil, Nat.mul_zero, Nat.add_zero] at this
      rw [this.2]
      refine ⟨_, rfl, ?_⟩
      simp
      omega
    | fault b =>
      simp only [List.length_nil, Nat.mul_zero, Nat.add_zero] at this
      rw [this.2.resolve_left (by omega)]
      refine ⟨_, rfl, ?_⟩
      by_cases h0 : n = 0
      · rw [if_pos h0]
        simp [h0]
      · rw [if_neg h0]
        simp
        omega
  | cons p ws ih =>
    intro fuel prev a n hv hf hp ha hn hb
    obtain ⟨fuel, rfl⟩ : ∃ k, fuel = k + 1 := ⟨fuel - 1, by simp at hf; omega⟩
    obtain ⟨-, h1, h2⟩ := hv.head
    rw [List.length_cons] at hb hf
    unfold argcLoop
    rw [if_pos (by omega), h1]
    dsimp only
    rw [if_neg h2, Nat.mod_eq_of_lt (by omega : n + 1 < 2 ^ 32)]
    by_cases hlt : a + w < 2 ^ 64
    · rw [Nat.mod_eq_of_lt hlt]
      obtain ⟨r, hr, hs⟩ := ih fuel a (a + w) (n + 1) (hv.tail hlt) (by omega) (by omega) hlt (by omega) (by omega)
      refine ⟨r, hr, ?_⟩
      cases r with
      | none => exact absurd hs.1 (by omega)
      | some t =>
        obtain ⟨k, a', p'⟩ := t
        dsimp only at hs ⊢
        refine ⟨by rw [hs.1, List.length_cons]; omega, hs.2⟩
    · obtain ⟨rfl, rfl⟩ := hv.wrap (by omega)
      obtain ⟨fuel, rfl⟩ : ∃ k, fuel = k + 1 := ⟨fuel - 1, by simp at hf; omega⟩
      unfold argcLoop
      rw [if_neg (by omega)]
      refine ⟨_, rfl, ?_⟩
      simp
      omega

/-- C85: if the environment is abbreviated its number of variables is shown, and that it has no end if it does not end
with NULL -/
theorem argc_shown (mem : Nat → Option Nat) (w a fuel : Nat) (ws : List Nat) (e : Ending) (hw : 0 < w) (hw8 : w ≤ 8)
    (ha : a ≠ 0) (ha' : a < 2 ^ 64) (hv : Vector mem w a ws e) (hl : ws.length < 2 ^ 32) (hf : ws.length < fuel) :
    printargc true mem w fuel a = some (countText a ws e) := by
  unfold printargc
  rw [if_neg (by simpa using ha)]
  obtain ⟨r, hr, hs⟩ := argcLoop_eq mem w hw hw8 e ws fuel 0 a 0 hv hf (by omega) ha' (by simp) (by omega)
  rw [hr]
  unfold countText
  cases r with
  | none =>
    obtain ⟨-, h1, h2⟩ := hs
    rw [if_pos ⟨h1, h2⟩]
    rfl
  | some t =>
    obtain ⟨k, a', p'⟩ := t
    obtain ⟨h1, h2, h3⟩ := hs
    have hneg : ¬ (ws = [] ∧ e ≠ .null) := by
      rintro ⟨rfl, h⟩
      rcases h3 with h3 | h3
      · simp at h1; omega
      · exact h h3
    rw [if_neg hneg]
    simp only [Option.map_some, h1, Nat.zero_add, decide_eq_decide.2 h2]

/-- C85: the environment is counted if abbreviating and shown in full otherwise -/
theorem envp_shown (limit : Option Nat) (mem : Nat → Option Nat) (w a fuel : Nat) (ws : List Nat) (e : Ending)
    (hw : 0 < w) (hw8 : w ≤ 8) (ha : a ≠ 0) (ha' : a < 2 ^ 64) (hv : Vector mem w a ws e) (hl : ws.length < 2 ^ 32)
    (hf : ws.length < fuel) :
    printenvp limit true mem w fuel a = some (if limit = none then argText none a ws e else countText a ws e) := by
  unfold printenvp
  cases limit with
  | none =>
    rw [if_neg (by simp), if_pos rfl]
    exact argv_shown none mem w a fuel ws e hw hw8 ha ha' hv hl hf
  | some m =>
    rw [if_pos (by simp), if_neg (by simp)]
    exact argc_shown mem w a fuel ws e hw hw8 ha ha' hv hl hf

/-- C85: NULL, and everything if not verbose, is shown as an address -/
theorem args_plain (limit : Option Nat) (verb : Bool) (mem : Nat → Option Nat) (w a fuel : Nat)
    (h : a = 0 ∨ verb = false) :
    printargv limit verb mem w fuel a = some [.addr a] ∧ printenvp limit verb mem w fuel a = some [.addr a] := by
  have h1 : printargv limit verb mem w fuel a = some [.addr a] := by unfold printargv; rw [if_pos h]
  refine ⟨h1, ?_⟩
  unfold printenvp
  split
  · unfold printargc; rw [if_pos h]
  · exact h1

/-- pointers in memory at 4096 -/
def exWords (ws : List Nat) (a : Nat) : Option Nat := if 4096 ≤ a ∧ a % 8 = 0 then ws[(a - 4096) / 8]? else none

/-- the hypotheses are met by arrays with and without an end -/
example : Vector (exWords [65, 66, 67, 0]) 8 4096 [65, 66, 67] .null := by
  refine ⟨?_, ?_, by decide +kernel⟩
  · intro i hi
    have hi : i < 3 := hi
    omega
  · intro i hi
    have hi : i < 3 := hi
    interval_cases i <;> exact ⟨rfl, by simp⟩

example : printargv (some 32) true (exWords [65, 66, 67, 0]) 8 5 4096 =
    some [.opened, .str 65, .next, .str 66, .next, .str 67, .closed] := by decide +kernel

example : printargv (some 2) true (exWords [65, 66, 67, 0]) 8 5 4096 =
    some [.opened, .str 65, .next, .str 66, .next, .more, .closed] := by decide +kernel

example : printargv (some 3) true (exWords [65, 66, 67]) 8 5 4096 =
    some [.opened, .str 65, .next, .str 66, .next, .str 67, .next, .more, .comment 4120, .closed] := by decide +kernel

example : printargc true (exWords [65, 66, 67]) 8 5 4096 = some [.addr 4096, .count 3 true] := by decide +kernel

end Strace.Tracee
