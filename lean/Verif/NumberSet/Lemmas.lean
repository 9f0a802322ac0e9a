import Verif.NumberSet.Model
namespace Strace.NumberSet

/-- bit `n` of a slot vector -/
def bit (v : List (BitVec 32)) (n : Nat) : Bool :=
  match v[n / 32]? with
  | some x => x.getLsbD (n % 32)
  | none => false

theorem and_bit_ne_zero (x : BitVec 32) (k : Nat) (hk : k < 32) :
    ((x &&& (1#32 <<< k)) != 0#32) = x.getLsbD k := by
  have key : ∀ i, (x &&& (1#32 <<< k)).getLsbD i = (decide (i = k) && x.getLsbD k) := by
    intro i
    simp only [BitVec.getLsbD_and, BitVec.getLsbD_shiftLeft, BitVec.getLsbD_one]
    by_cases hi : i = k
    · subst hi; simp [hk]
    · simp only [hi, decide_false, Bool.false_and]
      by_cases hlt : i < k
      · simp [hlt]
      · have : ¬ i - k = 0 := by omega
        simp [this]
  cases hb : x.getLsbD k with
  | true =>
    simp only [bne_iff_ne, ne_eq]
    intro h0
    have := key k
    rw [h0] at this
    simp [hb] at this
  | false =>
    simp only [bne_eq_false_iff_eq]
    apply BitVec.eq_of_getLsbD_eq
    intro i _
    rw [key i, hb]; simp

theorem or_bit (x : BitVec 32) (k j : Nat) (hk : k < 32) (hj : j < 32) :
    (x ||| (1#32 <<< k)).getLsbD j = (x.getLsbD j || decide (j = k)) := by
  simp only [BitVec.getLsbD_or, BitVec.getLsbD_shiftLeft, BitVec.getLsbD_one]
  by_cases hjk : j = k
  · subst hjk; simp [hj]
  · by_cases hlt : j < k
    · simp [hlt, hjk]
    · have : ¬ j - k = 0 := by omega
      simp [this, hjk]

theorem isset_eq (n : Nat) (v : List (BitVec 32)) (h : n / 32 < v.length) :
    isset n v = some (bit v n) := by
  unfold isset bit
  rw [List.getElem?_eq_getElem h]
  simp only [Option.map_some]
  rw [and_bit_ne_zero _ _ (Nat.mod_lt _ (by decide))]

theorem bit_ge (v : List (BitVec 32)) (n : Nat) (h : v.length ≤ n / 32) : bit v n = false := by
  unfold bit; rw [List.getElem?_eq_none h]

theorem bit_realloc (s : NSet) (k n : Nat) : bit (realloc s k).vec n = bit s.vec n := by
  unfold realloc
  split
  · rfl
  · unfold bit
    by_cases h : n / 32 < s.vec.length
    · rw [List.getElem?_append_left h]
    · rw [List.getElem?_append_right (by omega), List.getElem?_eq_none (l := s.vec) (by omega)]
      rw [List.getElem?_replicate]
      by_cases hc : n / 32 - s.vec.length < k - s.vec.length <;> simp [hc]

theorem realloc_neg (s : NSet) (k : Nat) : (realloc s k).neg = s.neg := by
  unfold realloc; split <;> rfl

theorem realloc_length (s : NSet) (k : Nat) : k ≤ (realloc s k).vec.length := by
  unfold realloc; split
  · assumption
  · simp; omega

theorem bit_setbit (v : List (BitVec 32)) (i n : Nat) (h : i / 32 < v.length) :
    bit (setbit i v) n = (bit v n || decide (n = i)) := by
  unfold bit setbit
  rw [List.getElem?_modify]
  by_cases hs : i / 32 = n / 32
  · rw [← hs, List.getElem?_eq_getElem h]
    simp only [Option.map_eq_map, Option.map_some, if_true]
    rw [or_bit _ _ _ (Nat.mod_lt _ (by decide)) (Nat.mod_lt _ (by decide))]
    congr 1
    have : (n % 32 = i % 32) ↔ n = i := by omega
    simp [this]
  · have : ¬ n = i := by intro h; subst h; exact hs rfl
    simp only [this, decide_false, Bool.or_false, if_neg hs]
    cases v[n / 32]? <;> rfl

theorem bit_addNumber (s : NSet) (i n : Nat) :
    bit (addNumber i s).vec n = (bit s.vec n || decide (n = i)) := by
  unfold addNumber
  simp only
  rw [bit_setbit _ _ _ (by have := realloc_length s (i / 32 + 1); omega), bit_realloc]

theorem bit_clear (s : NSet) (n : Nat) : bit (clear s).vec n = false := by
  unfold bit clear
  simp only [List.getElem?_replicate]
  by_cases hc : n / 32 < s.vec.length <;> simp [hc]

theorem isNumberInSet_eq (n : Nat) (s : NSet) : isNumberInSet n s = some (bit s.vec n ^^ s.neg) := by
  unfold isNumberInSet
  split
  · rename_i h; rw [isset_eq n s.vec h]; rfl
  · rename_i h; rw [bit_ge s.vec n (by omega)]

end Strace.NumberSet
