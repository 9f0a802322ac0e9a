import Verif.Sets.Props
/-!
C90: ICMP filters.
-/
namespace Strace.Sets
open Strace.Bits Strace.Sized

theorem bytesOf_len (be : Bool) (n v : Nat) : (bytesOf be n v).length = n := by
  unfold bytesOf
  split <;> simp

theorem bytesOf_bit (be : Bool) (w v i : Nat) (hw : w = 4 ∨ w = 8) (hi : i < 32) :
    bitX (bytesOf be (if w > 4 then w else 4) v) (xorMask be w) i = v.testBit i := by
  unfold bitX
  rw [pos_eq be w i hw]
  have hn : (if w > 4 then w else 4) = w := by rcases hw with rfl | rfl <;> rfl
  rw [hn]
  have key : (v / 256 ^ (i / 8) % 256).testBit (i % 8) = v.testBit i := by
    rw [show (256 : Nat) = 2 ^ 8 by rfl, ← Nat.pow_mul, Nat.testBit_mod_two_pow, Nat.testBit_div_two_pow]
    have : i % 8 < 8 := by omega
    simp only [this, decide_true, Bool.true_and]
    congr 1
    omega
  rw [← key]
  congr 1
  cases be
  · unfold bytesOf bytePos
    simp only [Bool.false_eq_true, if_false]
    rw [List.getElem?_map, List.getElem?_range (by omega)]
    rfl
  · unfold bytesOf bytePos
    simp only [if_true]
    have hp : i / (8 * w) * w + (w - 1 - i / 8 % w) = w - 1 - i / 8 := by
      rcases hw with rfl | rfl <;> omega
    rw [hp, List.getElem?_reverse (by simp; omega), List.length_map, List.length_range, List.getElem?_map,
      show w - 1 - (w - 1 - i / 8) = i / 8 by omega, List.getElem?_range (by omega)]
    rfl

theorem icmp_scan (be : Bool) (w v : Nat) (hw : w = 4 ∨ w = 8) :
    ∃ is : List Nat, scan (bytesOf be (if w > 4 then w else 4) v) (xorMask be w) 32 0 = some is ∧
      Lists is (bitOf v) ∧ is.length = ((List.range 32).filter fun i => v.testBit i).length := by
  have hn : (if w > 4 then w else 4) = w := by rcases hw with rfl | rfl <;> rfl
  refine ⟨_, scan_set _ be w 32 hw (by rw [bytesOf_len, hn]; exact Nat.mod_self w) (by rw [bytesOf_len, hn]; omega),
    lists_filter _ _ _ (fun i => ?_), ?_⟩
  · show bitOf v i ↔ _ ∧ bitX _ _ i = true
    unfold bitOf
    constructor
    · rintro ⟨h1, h2⟩
      rw [bytesOf_bit be w v i hw h1]
      exact ⟨h1, by rw [Nat.testBit_eq_decide_div_mod_eq]; simpa using h2⟩
    · rintro ⟨h1, h2⟩
      rw [bytesOf_bit be w v i hw h1, Nat.testBit_eq_decide_div_mod_eq] at h2
      exact ⟨h1, by simpa using h2⟩
  · congr 1
    apply List.filter_congr
    intro i hi
    exact bytesOf_bit be w v i hw (List.mem_range.mp hi)

theorem compl_bit (v i : Nat) (hv : v < 2 ^ 32) (hi : i < 32) : (2 ^ 32 - 1 - v).testBit i = !v.testBit i := by
  have := Nat.testBit_two_pow_sub_succ hv i
  rw [show 2 ^ 32 - (v + 1) = 2 ^ 32 - 1 - v by omega] at this
  rw [this]
  simp [hi]

theorem filter_compl_len (p : Nat → Bool) : ∀ l : List Nat,
    (l.filter p).length + (l.filter fun i => !p i).length = l.length
  | [] => rfl
  | x :: l => by
    have := filter_compl_len p l
    rw [List.filter_cons, List.filter_cons]
    cases p x <;> simp <;> omega

theorem pop_eq (v : Nat) (hv : v < 2 ^ 32) : popcount32 [v] = ((List.range 32).filter fun i => v.testBit i).length := by
  unfold popcount32
  rw [List.foldl_cons, List.foldl_nil, Nat.zero_add, kernighan_eq, Base.popcount_eq_count 32 v hv]

/-- A filter is shown as the set of its bits or, if there are more than sixteen, as the complement of the set of the others; either way
the bits of the filter can be told from it, and at most sixteen are written. -/
theorem icmpOut_shown (be : Bool) (w v : Nat) (hw : w = 4 ∨ w = 8) (hv : v < 2 ^ 32) :
    ∃ is : List Nat, is.length ≤ 16 ∧
      ((icmpOut be w v = some (.set is false) ∧ Lists is (bitOf v)) ∨
        (icmpOut be w v = some (.inverted is) ∧ Lists is (fun i => i < 32 ∧ ¬ bitOf v i))) := by
  unfold icmpOut
  rw [pop_eq v hv]
  by_cases h : ((List.range 32).filter fun i => v.testBit i).length > 4 * 8 / 2
  · rw [if_pos h]
    obtain ⟨is, h1, h2, h3⟩ := icmp_scan be w (2 ^ 32 - 1 - v) hw
    rw [h1]
    refine ⟨is, ?_, Or.inr ⟨rfl, h2.1, fun i => ?_⟩⟩
    · have e : ((List.range 32).filter fun i => (2 ^ 32 - 1 - v).testBit i) = (List.range 32).filter fun i => !v.testBit i := by
        apply List.filter_congr
        intro i hi
        exact compl_bit v i hv (List.mem_range.mp hi)
      have := filter_compl_len (fun i => v.testBit i) (List.range 32)
      rw [List.length_range] at this
      rw [h3, e]
      omega
    · rw [h2.2]
      unfold bitOf
      constructor
      · rintro ⟨hi, hb⟩
        have hc := compl_bit v i hv hi
        rw [Nat.testBit_eq_decide_div_mod_eq, Nat.testBit_eq_decide_div_mod_eq, hb] at hc
        refine ⟨hi, fun hx => ?_⟩
        rw [hx.2] at hc
        simp at hc
      · rintro ⟨hi, hb⟩
        have hc := compl_bit v i hv hi
        rw [Nat.testBit_eq_decide_div_mod_eq, Nat.testBit_eq_decide_div_mod_eq] at hc
        refine ⟨hi, ?_⟩
        have hn : ¬ v / 2 ^ i % 2 = 1 := fun hx => hb ⟨hi, hx⟩
        simpa [hn] using hc
  · rw [if_neg h]
    obtain ⟨is, h1, h2, h3⟩ := icmp_scan be w v hw
    rw [h1]
    exact ⟨is, by omega, Or.inl ⟨rfl, h2⟩⟩

theorem le_lt : ∀ l : List Byte, le l < 256 ^ l.length
  | [] => by decide
  | b :: l => by
    have := le_lt l
    have := b.isLt
    rw [le, List.length_cons, Nat.pow_succ]
    omega

/-- The filter in memory: the bytes passed, and ones for those that are not. -/
theorem icmp_shown (mem : Nat → Option Byte) (be : Bool) (w a : Nat) (len : Int) (l : List Byte) (hw : w = 4 ∨ w = 8) (h0 : a ≠ 0)
    (ha : a < 2 ^ 64) (hl : 0 < len) (hn : l.length = min len.toNat 4)
    (hm : ∀ i, i < l.length → mem ((a + i) % 2 ^ 64) = l[i]?) :
    ∃ v : Nat, v = (if be = true then le (l ++ List.replicate (4 - l.length) 255).reverse
        else le (l ++ List.replicate (4 - l.length) 255)) ∧
      ∃ is : List Nat, is.length ≤ 16 ∧
        ((icmpFilter mem be true w a len = some (.set is false) ∧ Lists is (bitOf v)) ∨
          (icmpFilter mem be true w a len = some (.inverted is) ∧ Lists is (fun i => i < 32 ∧ ¬ bitOf v i))) := by
  refine ⟨_, rfl, ?_⟩
  have hlen : icmpLen len = l.length := by
    unfold icmpLen
    split <;> omega
  have hread : Readable mem a l.length := fun i hi => by
    rw [hm i hi, List.getElem?_eq_getElem hi]; rfl
  obtain ⟨l', hl'⟩ := moven_readable mem l.length a ha hread
  obtain ⟨e1, e2⟩ := moven_get mem _ a l' hl' ha
  have hll : l' = l := by
    apply List.ext_getElem? 
    intro k
    by_cases hk : k < l.length
    · rw [e2 k hk, hm k hk]
    · rw [List.getElem?_eq_none (by omega), List.getElem?_eq_none (by omega)]
  subst hll
  have hf : icmpFilter mem be true w a len = icmpOut be w (numOf be (l' ++ List.replicate (4 - l'.length) 255)) := by
    unfold icmpFilter
    rw [if_neg (by omega), hlen]
    unfold fetch
    rw [if_neg (by simp [h0]), hl']
  rw [hf]
  have hv : numOf be (l' ++ List.replicate (4 - l'.length) 255) < 2 ^ 32 := by
    have h4 : (l' ++ List.replicate (4 - l'.length) (255 : Byte)).length = 4 := by
      simp; omega
    unfold numOf
    split
    · have := le_lt (l' ++ List.replicate (4 - l'.length) 255).reverse
      rw [List.length_reverse, h4] at this
      exact this
    · have := le_lt (l' ++ List.replicate (4 - l'.length) 255)
      rw [h4] at this
      exact this
  exact icmpOut_shown be w _ hw hv

/-- No length or unreadable bytes: the address. -/
theorem icmp_addr (mem : Nat → Option Byte) (be vb : Bool) (w a : Nat) (len : Int) (ha : a < 2 ^ 64)
    (h : len ≤ 0 ∨ a = 0 ∨ vb = false ∨ ¬ Readable mem a (min len.toNat 4)) :
    icmpFilter mem be vb w a len = some (.addr a) := by
  unfold icmpFilter
  by_cases h1 : len ≤ 0
  · rw [if_pos h1]
  · rw [if_neg h1]
    have hlen : icmpLen len = min len.toNat 4 := by
      unfold icmpLen
      split <;> omega
    have hf : fetch mem vb a (icmpLen len) = none := by
      unfold fetch
      rcases h with h | h | h | h
      · exact absurd h h1
      · rw [if_pos (Or.inl h)]
      · rw [if_pos (Or.inr h)]
      · rw [hlen]
        split
        · rfl
        · exact moven_not mem _ a ha h
    rw [hf]

/-- echo replies and source quench; everything but echo requests; two bytes of a filter -/
example :
    icmpOut false 8 0x11 = some (.set [0, 4] false) ∧ icmpOut true 8 0x11 = some (.set [0, 4] false) ∧
      icmpOut false 4 0xfffffeff = some (.inverted [8]) ∧
      icmpFilter (fun x => if x = 50 then some 0xfe else if x = 51 then some 0xff else none) false true 8 50 2 =
        some (.inverted [0]) := by decide +kernel

end Strace.Sets
