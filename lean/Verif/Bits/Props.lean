import Verif.Bits.Model
/-
C40: bit search.  C39: signal sets.  C41: the result text of select.
-/
namespace Strace.Bits
open Strace.Base

/-! ### C40 -/

/-- bit `i` through the index computation of the code -/
def bitX (arr : List Nat) (xm i : Nat) : Bool := (arr[(i / 8) ^^^ xm]?.getD 0).testBit (i % 8)

/-- Specification: bit `i` of an array of `w`-byte words in memory order of a little-endian
(`le = true`) or big-endian machine: byte `b = i / 8` of the bit string is byte `b` of memory or, on a
big-endian machine, the byte mirrored within its word. -/
def bitAt (arr : List Nat) (le : Bool) (w i : Nat) : Bool :=
  let b := i / 8
  (arr[if le then b else b / w * w + (w - 1 - b % w)]?.getD 0).testBit (i % 8)

/-- The first set bit at or after `cur` below `size`. -/
def FirstSet (bit : Nat → Bool) (cur size : Nat) (r : Option Nat) : Prop :=
  match r with
  | some j => cur ≤ j ∧ j < size ∧ bit j = true ∧ ∀ i, cur ≤ i → i < j → bit i = false
  | none => ∀ i, cur ≤ i → i < size → bit i = false

theorem pow_mod_cycle (k : Nat) (hk : k < 8) : 2 ^ k * 2 % 256 = if k = 7 then 0 else 2 ^ (k + 1) := by
  have : k = 0 ∨ k = 1 ∨ k = 2 ∨ k = 3 ∨ k = 4 ∨ k = 5 ∨ k = 6 ∨ k = 7 := by omega
  rcases this with rfl | rfl | rfl | rfl | rfl | rfl | rfl | rfl <;> rfl

/-- the inner loop looks through the rest of one byte -/
theorem inner_spec (byte size cur : Nat) (hc : cur < size) :
    match inner byte size cur (2 ^ (cur % 8)) with
    | .ret (some j) => cur ≤ j ∧ j < size ∧ j / 8 = cur / 8 ∧ byte.testBit (j % 8) = true ∧
        ∀ i, cur ≤ i → i < j → byte.testBit (i % 8) = false
    | .ret none => size ≤ (cur / 8 + 1) * 8 ∧ ∀ i, cur ≤ i → i < size → byte.testBit (i % 8) = false
    | .cont c => c = (cur / 8 + 1) * 8 ∧ ∀ i, cur ≤ i → i < c → byte.testBit (i % 8) = false := by
  generalize hk : size - cur = k
  induction k using Nat.strongRecOn generalizing cur with
  | ind k ih =>
    unfold inner
    by_cases hb : byte &&& 2 ^ (cur % 8) ≠ 0
    · rw [if_pos hb]
      dsimp only
      exact ⟨by omega, hc, rfl, (and_two_pow_ne_zero _ _).1 hb, fun i h1 h2 => by omega⟩
    rw [if_neg hb]
    have hbf : byte.testBit (cur % 8) = false := by
      cases h : byte.testBit (cur % 8) with
      | false => rfl
      | true => exact absurd ((and_two_pow_ne_zero _ _).2 h) hb
    by_cases hs : cur + 1 ≥ size
    · rw [if_pos hs]
      dsimp only
      refine ⟨by omega, fun i h1 h2 => ?_⟩
      have : i = cur := by omega
      rw [this]; exact hbf
    rw [if_neg hs, pow_mod_cycle (cur % 8) (by omega)]
    by_cases h7 : cur % 8 = 7
    · rw [if_pos h7, if_pos rfl]
      dsimp only
      refine ⟨by omega, fun i h1 h2 => ?_⟩
      have : i = cur := by omega
      rw [this]; exact hbf
    · rw [if_neg h7, if_neg (Nat.pos_iff_ne_zero.1 (Nat.pow_pos (by decide)))]
      have hm : cur % 8 + 1 = (cur + 1) % 8 := by omega
      rw [hm]
      have hd : (cur + 1) / 8 = cur / 8 := by omega
      have := ih (size - (cur + 1)) (by omega) (cur + 1) (by omega) rfl
      rw [hd] at this
      revert this
      generalize inner byte size (cur + 1) (2 ^ ((cur + 1) % 8)) = r
      intro this
      match r with
      | .ret (some j) =>
        dsimp only at this ⊢
        refine ⟨by omega, this.2.1, this.2.2.1, this.2.2.2.1, fun i h1 h2 => ?_⟩
        by_cases hi : i = cur
        · rw [hi]; exact hbf
        · exact this.2.2.2.2 i (by omega) h2
      | .ret none =>
        dsimp only at this ⊢
        refine ⟨this.1, fun i h1 h2 => ?_⟩
        by_cases hi : i = cur
        · rw [hi]; exact hbf
        · exact this.2 i (by omega) h2
      | .cont c =>
        dsimp only at this ⊢
        refine ⟨this.1, fun i h1 h2 => ?_⟩
        by_cases hi : i = cur
        · rw [hi]; exact hbf
        · exact this.2 i (by omega) h2

theorem outer_spec (arr : List Nat) (xm size cur pos : Nat) (hpos : pos = cur / 8)
    (hr : ∀ p, p * 8 < size → p ^^^ xm < arr.length) :
    ∃ r, outer arr xm size cur pos = some r ∧ FirstSet (bitX arr xm) cur size r := by
  generalize hk : size - cur = k
  induction k using Nat.strongRecOn generalizing cur pos with
  | ind k ih =>
    unfold outer
    by_cases hc : cur ≥ size
    · rw [dif_pos hc]
      exact ⟨none, rfl, fun i h1 h2 => by omega⟩
    rw [dif_neg hc]
    have hlt := hr pos (by omega)
    have hget : arr[pos ^^^ xm]? = some (arr[pos ^^^ xm]'hlt) := List.getElem?_eq_getElem hlt
    have hbit : ∀ i, i / 8 = cur / 8 → bitX arr xm i = (arr[pos ^^^ xm]'hlt).testBit (i % 8) := by
      intro i hi
      unfold bitX
      rw [hi, ← hpos, hget]; rfl
    rw [hget]
    dsimp only
    revert hbit
    generalize (arr[pos ^^^ xm]'hlt) = byte
    intro hbit
    by_cases h0 : byte = 0
    · rw [if_pos h0]
      obtain ⟨r, h1, h2⟩ := ih (size - (cur + 8) / 8 * 8) (by omega) ((cur + 8) / 8 * 8) (pos + 1) (by omega) rfl
      refine ⟨r, h1, ?_⟩
      have hz : ∀ i, cur ≤ i → i < (cur + 8) / 8 * 8 → bitX arr xm i = false := by
        intro i hi1 hi2
        rw [hbit i (by omega), h0, Nat.zero_testBit]
      unfold FirstSet at h2 ⊢
      cases r with
      | none =>
        dsimp only at h2 ⊢
        intro i hi1 hi2
        by_cases hi : i < (cur + 8) / 8 * 8
        · exact hz i hi1 hi
        · exact h2 i (by omega) hi2
      | some j =>
        dsimp only at h2 ⊢
        refine ⟨by omega, h2.2.1, h2.2.2.1, fun i hi1 hi2 => ?_⟩
        by_cases hi : i < (cur + 8) / 8 * 8
        · exact hz i hi1 hi
        · exact h2.2.2.2 i (by omega) hi2
    · rw [if_neg h0]
      have hin := inner_spec byte size cur (by omega)
      split
      · rename_i r hir
        rw [hir] at hin
        refine ⟨r, rfl, ?_⟩
        cases r with
        | none =>
          dsimp only at hin ⊢
          intro i hi1 hi2
          rw [hbit i (by omega)]; exact hin.2 i hi1 hi2
        | some j =>
          dsimp only at hin ⊢
          refine ⟨hin.1, hin.2.1, ?_, fun i hi1 hi2 => ?_⟩
          · rw [hbit j hin.2.2.1]; exact hin.2.2.2.1
          · have : cur / 8 ≤ i / 8 := Nat.div_le_div_right hi1
            have : i / 8 ≤ j / 8 := Nat.div_le_div_right (by omega)
            rw [hbit i (by omega)]; exact hin.2.2.2.2 i hi1 hi2
      · rename_i c hir
        rw [hir] at hin
        dsimp only at hin
        obtain ⟨r, h1, h2⟩ := ih (size - c) (by omega) c (pos + 1) (by omega) rfl
        refine ⟨r, h1, ?_⟩
        have hz : ∀ i, cur ≤ i → i < c → bitX arr xm i = false := by
          intro i hi1 hi2
          rw [hbit i (by omega)]; exact hin.2 i hi1 hi2
        unfold FirstSet at h2 ⊢
        cases r with
        | none =>
          dsimp only at h2 ⊢
          intro i hi1 hi2
          by_cases hi : i < c
          · exact hz i hi1 hi
          · exact h2 i (by omega) hi2
        | some j =>
          dsimp only at h2 ⊢
          refine ⟨by omega, h2.2.1, h2.2.2.1, fun i hi1 hi2 => ?_⟩
          by_cases hi : i < c
          · exact hz i hi1 hi
          · exact h2.2.2.2 i (by omega) hi2

/-- C40, little-endian machines: for every array holding at least `size` bits, the result is the first
set bit at or after the start and below the size (or -1), and nothing outside the array is read. -/
theorem nextSetBit_le (arr : List Nat) (w cur size : Nat) (hs : size ≤ arr.length * 8) :
    ∃ r, nextSetBit arr 0 cur size = some r ∧ FirstSet (bitAt arr true w) cur size r := by
  obtain ⟨r, h1, h2⟩ := outer_spec arr 0 size cur (cur / 8) rfl (fun p hp => by rw [Nat.xor_zero]; omega)
  refine ⟨r, h1, ?_⟩
  have : bitX arr 0 = bitAt arr true w := by
    funext i; unfold bitX bitAt; rw [Nat.xor_zero]; rfl
  rw [← this]; exact h2

theorem xor_mirror (b k : Nat) : b ^^^ (2 ^ k - 1) = b / 2 ^ k * 2 ^ k + (2 ^ k - 1 - b % 2 ^ k) := by
  have hk : 0 < 2 ^ k := Nat.pow_pos (by decide)
  have hlt : 2 ^ k - 1 - b % 2 ^ k < 2 ^ k := by omega
  apply Nat.eq_of_testBit_eq
  intro i
  rw [Nat.testBit_xor, Nat.testBit_two_pow_sub_one, Nat.mul_comm, Nat.testBit_two_pow_mul_add _ hlt]
  by_cases hi : i < k
  · have hm : b % 2 ^ k < 2 ^ k := Nat.mod_lt _ hk
    rw [if_pos hi]
    have := Nat.testBit_two_pow_sub_succ hm i
    rw [show 2 ^ k - (b % 2 ^ k + 1) = 2 ^ k - 1 - b % 2 ^ k by omega] at this
    rw [this, Nat.testBit_mod_two_pow]
    simp [hi]
  · rw [if_neg hi, Nat.testBit_div_two_pow]
    simp [hi]
    rw [show i - k + k = i by omega]

/-- C40, big-endian machines with words of 4 or 8 bytes (any power of two): the array consists of whole
words. -/
theorem nextSetBit_be (arr : List Nat) (k cur size : Nat) (hw : arr.length % 2 ^ k = 0)
    (hs : size ≤ arr.length * 8) :
    ∃ r, nextSetBit arr (2 ^ k - 1) cur size = some r ∧ FirstSet (bitAt arr false (2 ^ k)) cur size r := by
  have hk : 0 < 2 ^ k := Nat.pow_pos (by decide)
  obtain ⟨r, h1, h2⟩ := outer_spec arr (2 ^ k - 1) size cur (cur / 8) rfl (fun p hp => by
    rw [xor_mirror]
    have hpl : p < arr.length := by omega
    have h3 : arr.length / 2 ^ k * 2 ^ k = arr.length := Nat.div_mul_cancel (Nat.dvd_of_mod_eq_zero hw)
    have h4 : p / 2 ^ k < arr.length / 2 ^ k := by
      rw [Nat.div_lt_iff_lt_mul hk, h3]; exact hpl
    have h5 : (p / 2 ^ k + 1) * 2 ^ k ≤ arr.length / 2 ^ k * 2 ^ k := Nat.mul_le_mul_right _ h4
    rw [Nat.add_mul] at h5
    omega)
  refine ⟨r, h1, ?_⟩
  have : bitX arr (2 ^ k - 1) = bitAt arr false (2 ^ k) := by
    funext i; unfold bitX bitAt; rw [xor_mirror]; rfl
  rw [← this]; exact h2

/-- bits 3 and 17 of three bytes; the same array read as one big-endian word -/
example : nextSetBit [8, 0, 2] 0 4 24 = some (some 17) ∧ nextSetBit [8, 0, 2] 0 18 24 = some none ∧
    nextSetBit [0, 2, 0, 8] 3 4 32 = some (some 17) := by decide +kernel

/-! ### the scan loop -/

theorem scan_spec (arr : List Nat) (xm size cur : Nat) (hr : ∀ p, p * 8 < size → p ^^^ xm < arr.length) :
    scan arr xm size cur = some (((List.range' cur (size - cur)).filter fun i => bitX arr xm i)) := by
  generalize hk : size - cur = k
  induction k using Nat.strongRecOn generalizing cur with
  | ind k ih =>
    obtain ⟨r, h1, h2⟩ := outer_spec arr xm size cur (cur / 8) rfl hr
    have h1' : nextSetBit arr xm cur size = some r := h1
    unfold scan
    split
    · rename_i hh; rw [h1'] at hh; cases hh
    · rename_i hh
      rw [h1'] at hh; injection hh with hh; subst hh
      have : (List.range' cur k).filter (fun i => bitX arr xm i) = [] := by
        rw [List.filter_eq_nil_iff]
        intro i hi
        rw [List.mem_range'_1] at hi
        have := h2 i hi.1 (by omega)
        simp [this]
      rw [this]
    · rename_i j hh
      rw [h1'] at hh; injection hh with hh; subst hh
      obtain ⟨hj1, hj2, hj3, hj4⟩ := h2
      rw [ih (size - (j + 1)) (by omega) (j + 1) rfl]
      have hsplit : List.range' cur k = List.range' cur (j - cur) ++ j :: List.range' (j + 1) (size - (j + 1)) := by
        have e : k = (j - cur) + ((size - (j + 1)) + 1) := by omega
        rw [e, ← List.range'_append]
        congr 1
        rw [List.range'_succ]
        congr 1
        · omega
        · congr 1; omega
      have hz : (List.range' cur (j - cur)).filter (fun i => bitX arr xm i) = [] := by
        rw [List.filter_eq_nil_iff]
        intro i hi
        rw [List.mem_range'_1] at hi
        have := hj4 i hi.1 (by omega)
        simp [this]
      rw [hsplit, List.filter_append, hz, List.filter_cons, if_pos hj3]
      rfl

end Strace.Bits
