import Verif.Sock.Spec
import Verif.Sized.Props
import Mathlib.Tactic.Common
import Mathlib.Tactic.IntervalCases
/-!
# Socket addresses: what is shown
-/
namespace Strace.Sock
open Strace.Sized (Byte moven fetch le Passed)

/-! ### Reading the buffer -/

/-- a buffer of `N` bytes that holds an address, cleared behind it -/
structure View (N : Nat) (b buf : List Byte) : Prop where
  len : buf.length = N
  val : ∀ i, i < N → buf.getD i 0 = b.getD i 0

theorem getD_of_lt (l : List Byte) (i : Nat) (h : i < l.length) : l[i]? = some (l.getD i 0) := by
  simp [List.getD_eq_getElem?_getD, List.getElem?_eq_getElem h]

theorem view_get {N : Nat} {b buf : List Byte} (v : View N b buf) (i : Nat) (h : i < N) : buf[i]? = some (b.getD i 0) := by
  rw [getD_of_lt buf i (by rw [v.len]; exact h), v.val i h]

theorem drop_take_eq (l : List Byte) : ∀ (n off : Nat), off + n ≤ l.length →
    (l.drop off).take n = (List.range n).map fun i => l.getD (off + i) 0 := by
  intro n off h
  apply List.ext_getElem
  · simp; omega
  · intro i h1 h2
    simp only [List.getElem_take, List.getElem_drop, List.getElem_map, List.getElem_range]
    rw [List.getD_eq_getElem?_getD, List.getElem?_eq_getElem (by simp at h1; omega)]; rfl

theorem view_rd {N : Nat} {b buf : List Byte} (v : View N b buf) (off n : Nat) (h : off + n ≤ N) :
    rd buf off n = some (bytesAt b off n) := by
  rw [rd, if_pos (by rw [v.len]; exact h), drop_take_eq buf n off (by rw [v.len]; exact h), bytesAt]
  congr 1
  apply List.map_congr_left
  intro i hi
  rw [List.mem_range] at hi
  exact v.val _ (by omega)

theorem le_map_range : ∀ (n : Nat) (f : Nat → Byte),
    le ((List.range n).map f) = ((List.range n).map fun i => (f i).val * 256 ^ i).sum := by
  intro n
  induction n with
  | zero => intro f; rfl
  | succ n ih =>
    intro f
    rw [List.range_succ_eq_map, List.map_cons, List.map_map, le, ih (f ∘ Nat.succ), List.map_cons, List.sum_cons, List.map_map]
    have hs : ∀ (L : List Nat) (g : Nat → Nat), (L.map fun i => 256 * g i).sum = 256 * (L.map g).sum := by
      intro L g; induction L with
      | nil => rfl
      | cons y L ih => simp [ih, Nat.mul_add]
    rw [← hs, Nat.pow_zero, Nat.mul_one]
    congr 2
    apply List.map_congr_left
    intro i _
    simp only [Function.comp, Nat.pow_succ, Nat.succ_eq_add_one]
    rw [Nat.mul_left_comm, Nat.mul_comm 256]

theorem le_bytesAt (b : List Byte) (off n : Nat) : le (bytesAt b off n) = leAt b off n := le_map_range n _

theorem le_reverse (b : List Byte) (off n : Nat) : le (bytesAt b off n).reverse = beAt b off n := by
  have h1 : (bytesAt b off n).reverse = (List.range n).map fun i => b.getD (off + (n - 1 - i)) 0 := by
    apply List.ext_getElem
    · simp [bytesAt]
    · intro i h1 h2
      simp [bytesAt, List.getElem_reverse]
  rw [h1, le_map_range, beAt, ← List.sum_reverse]
  congr 1
  apply List.ext_getElem
  · simp
  · intro i h1 h2
    simp only [List.length_map, List.length_range, List.length_reverse] at h1 h2
    simp only [List.getElem_reverse, List.getElem_map, List.getElem_range, List.length_map, List.length_range]
    have : n - 1 - (n - 1 - i) = i := by omega
    rw [this]

variable {N : Nat} {b buf : List Byte}

theorem view_rdNum (v : View N b buf) (off n : Nat) (h : off + n ≤ N) : rdNum buf off n = some (leAt b off n) := by
  rw [rdNum, view_rd v off n h, Option.map_some, le_bytesAt]

theorem view_num (v : View N b buf) (name : String) (off n : Nat) (h : off + n ≤ N) :
    num buf name off n = some [.num name (leAt b off n)] := by
  rw [num, view_rd v off n h, Option.map_some, le_bytesAt]

theorem view_net (v : View N b buf) (name : String) (off n : Nat) (h : off + n ≤ N) :
    net buf name off n = some [.net name (beAt b off n)] := by
  rw [net, view_rd v off n h, Option.map_some, le_reverse]

theorem view_raw (v : View N b buf) (name : String) (off n : Nat) (h : off + n ≤ N) :
    raw buf name off n = some [.raw name (bytesAt b off n)] := by
  rw [raw, view_rd v off n h, Option.map_some]

theorem view_num0 (v : View N b buf) (name : String) (off n : Nat) (h : off + n ≤ N) :
    num0 buf name off n = some (if leAt b off n = 0 then [] else [.num name (leAt b off n)]) := by
  rw [num0, view_rd v off n h, Option.map_some, le_bytesAt]

theorem cat_cons (x : List Tok) (r : List (Option (List Tok))) (m : List Tok) (h : cat r = some m) :
    cat (some x :: r) = some (x ++ m) := by
  rw [cat, h]; rfl

theorem cat_nil : cat [] = some [] := rfl

/-! ### Strings -/

theorem view_quote0 (v : View N b buf) : ∀ (n off : Nat), off + n < N →
    quote0 buf off n = some (upToNul (bytesAt b off n), decide (∃ i, i < n + 1 ∧ b.getD (off + i) 0 = 0)) := by
  intro n
  induction n with
  | zero =>
    intro off h
    rw [quote0, view_get v off (by omega)]
    simp only [Option.map_some, bytesAt, List.range_zero, List.map_nil, upToNul, List.takeWhile_nil]
    congr 2
    by_cases hz : b.getD off 0 = 0
    · have : ∃ i, i < 0 + 1 ∧ b.getD (off + i) 0 = 0 := ⟨0, by omega, hz⟩
      simp only [this, decide_true, hz, beq_self_eq_true]
    · have : ¬ ∃ i, i < 0 + 1 ∧ b.getD (off + i) 0 = 0 := by
        rintro ⟨i, hi, h⟩
        have : i = 0 := by omega
        subst this; exact hz h
      simp only [this, decide_false]
      exact beq_false_of_ne hz
  | succ n ih =>
    intro off h
    have hb : bytesAt b off (n + 1) = b.getD off 0 :: bytesAt b (off + 1) n := by
      rw [bytesAt, List.range_succ_eq_map, List.map_cons, List.map_map, bytesAt, Nat.add_zero]
      congr 1
      apply List.map_congr_left; intro i _
      simp only [Function.comp, Nat.succ_eq_add_one]
      congr 1; omega
    rw [quote0, view_get v off (by omega)]
    simp only
    by_cases hz : b.getD off 0 = 0
    · rw [if_pos hz, hb, upToNul, List.takeWhile_cons, hz]
      have : ∃ i, i < n + 1 + 1 ∧ b.getD (off + i) 0 = 0 := ⟨0, by omega, hz⟩
      simp only [this, decide_true]; simp
    · rw [if_neg hz, ih (off + 1) (by omega), hb, Option.map_some]
      have hne : (b.getD off 0 != 0) = true := by simpa using hz
      have : (∃ i, i < n + 1 ∧ b.getD (off + 1 + i) 0 = 0) ↔ ∃ i, i < n + 1 + 1 ∧ b.getD (off + i) 0 = 0 := by
        constructor
        · rintro ⟨i, hi, h⟩; exact ⟨i + 1, by omega, by rw [← h]; congr 1; omega⟩
        · rintro ⟨i, hi, h⟩
          cases i with
          | zero => exact absurd h hz
          | succ i => exact ⟨i, by omega, by rw [← h]; congr 1; omega⟩
      simp only [this, upToNul, List.takeWhile_cons, hne, if_true]

theorem view_cstr (v : View N b buf) (name : String) (off size : Nat) (hs : 0 < size) (h : off + size ≤ N) :
    cstr buf name off size =
      some [.str name (upToNul (bytesAt b off (size - 1))) (decide (¬ ∃ i, i < size ∧ b.getD (off + i) 0 = 0))] := by
  rw [cstr, view_quote0 v (size - 1) off (by omega)]
  have : size - 1 + 1 = size := by omega
  simp only [Option.map_some, this]
  congr 3
  by_cases hz : ∃ i, i < size ∧ b.getD (off + i) 0 = 0
  · simp only [hz, decide_true, not_true_eq_false, decide_false]; rfl
  · simp only [hz, decide_false, not_false_eq_true, decide_true]; rfl

end Strace.Sock
