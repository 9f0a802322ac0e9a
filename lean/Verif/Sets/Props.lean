import Verif.Sets.Model
import Verif.Sets.Spec
import Verif.Bits.Props
import Verif.Bits.SigProps
/-!
C90: sets passed as arrays of bits.
-/
namespace Strace.Sets
open Strace.Bits Strace.Sized

/-! ### Memory -/

theorem moven_get (mem : Nat → Option Byte) : ∀ (n a : Nat) (l : List Byte), moven mem a n = some l → a < 2 ^ 64 →
    l.length = n ∧ ∀ k, k < n → l[k]? = mem ((a + k) % 2 ^ 64)
  | 0, _, l, h, _ => by
    simp [moven] at h
    subst h
    exact ⟨rfl, fun k hk => absurd hk (by omega)⟩
  | n + 1, a, l, h, ha => by
    rw [moven] at h
    rcases h1 : mem a with _ | x
    · rw [h1] at h; simp at h
    · rcases h2 : moven mem ((a + 1) % 2 ^ 64) n with _ | t
      · rw [h1, h2] at h; simp at h
      · rw [h1, h2] at h
        simp only [Option.some.injEq] at h
        subst h
        obtain ⟨e1, e2⟩ := moven_get mem n _ t h2 (Nat.mod_lt _ (by decide))
        refine ⟨by simp [e1], fun k hk => ?_⟩
        rcases k with _ | k
        · rw [Nat.add_zero, Nat.mod_eq_of_lt ha, h1]; rfl
        · rw [List.getElem?_cons_succ, e2 k (by omega)]
          congr 1; omega

theorem moven_readable (mem : Nat → Option Byte) : ∀ (n a : Nat), a < 2 ^ 64 → Readable mem a n →
    ∃ l, moven mem a n = some l
  | 0, _, _, _ => ⟨[], rfl⟩
  | n + 1, a, ha, h => by
    have h0 := h 0 (by omega)
    rw [Nat.add_zero, Nat.mod_eq_of_lt ha] at h0
    obtain ⟨b, hb⟩ := Option.isSome_iff_exists.mp h0
    obtain ⟨l, hl⟩ := moven_readable mem n ((a + 1) % 2 ^ 64) (Nat.mod_lt _ (by decide)) (fun i hi => by
      have := h (i + 1) (by omega)
      rwa [show (a + (i + 1)) % 2 ^ 64 = ((a + 1) % 2 ^ 64 + i) % 2 ^ 64 by omega] at this)
    exact ⟨b :: l, by rw [moven, hb, hl]⟩

theorem moven_not (mem : Nat → Option Byte) : ∀ (n a : Nat), a < 2 ^ 64 → ¬ Readable mem a n → moven mem a n = none := by
  intro n a ha h
  rcases h1 : moven mem a n with _ | l
  · rfl
  · exfalso
    apply h
    obtain ⟨e1, e2⟩ := moven_get mem n a l h1 ha
    intro i hi
    rw [← e2 i hi, List.getElem?_eq_getElem (by omega)]
    rfl

/-! ### The position of a bit -/

theorem pos_eq (be : Bool) (w i : Nat) (hw : w = 4 ∨ w = 8) : (i / 8) ^^^ xorMask be w = bytePos be w i := by
  unfold xorMask bytePos
  cases be
  · simp
  · simp only [if_true]
    rw [← Nat.div_div_eq_div_mul]
    rcases hw with rfl | rfl
    · exact xor_mirror (i / 8) 2
    · exact xor_mirror (i / 8) 3

theorem pos_lt (be : Bool) (w i n : Nat) (hw : w = 4 ∨ w = 8) (hn : n % w = 0) : bytePos be w i < n ↔ i < n * 8 := by
  unfold bytePos
  cases be
  · simp only [Bool.false_eq_true, if_false]; omega
  · simp only [if_true]
    rcases hw with rfl | rfl <;> omega

theorem scan_set (arr : List Nat) (be : Bool) (w size : Nat) (hw : w = 4 ∨ w = 8) (ha : arr.length % w = 0)
    (hs : size ≤ arr.length * 8) :
    scan arr (xorMask be w) size 0 = some ((List.range size).filter fun i => bitX arr (xorMask be w) i) := by
  rw [scan_spec, Nat.sub_zero, List.range_eq_range']
  intro p hp
  have h1 := pos_eq be w (p * 8) hw
  rw [show p * 8 / 8 = p by omega] at h1
  rw [h1, pos_lt be w _ _ hw ha]
  omega

theorem range_pairwise (n : Nat) : (List.range n).Pairwise (· < ·) := by
  rw [List.range_eq_range']
  exact List.pairwise_lt_range'

theorem lists_filter (n : Nat) (p : Nat → Bool) (S : Nat → Prop) (h : ∀ i, S i ↔ i < n ∧ p i = true) :
    Lists ((List.range n).filter p) S := by
  refine ⟨(range_pairwise n).filter _, fun i => ?_⟩
  rw [List.mem_filter, List.mem_range, h]

theorem bitX_read (mem : Nat → Option Byte) (be : Bool) (w a n z i : Nat) (l : List Byte) (hw : w = 4 ∨ w = 8) (ha : a < 2 ^ 64)
    (h : moven mem a n = some l) :
    bitX (l.map (·.val) ++ List.replicate z 0) (xorMask be w) i = true ↔ InSet mem be w a n i := by
  obtain ⟨e1, e2⟩ := moven_get mem n a l h ha
  unfold bitX InSet
  rw [pos_eq be w i hw]
  generalize bytePos be w i = p
  by_cases hp : p < n
  · rw [List.getElem?_append_left (by simpa [e1] using hp), List.getElem?_map, ← e2 p hp,
      List.getElem?_eq_getElem (by omega)]
    simp [hp]
  · rw [List.getElem?_append_right (by simpa [e1] using hp), List.length_map, e1]
    have hz : ((List.replicate z 0)[p - n]?.getD 0) = 0 := by
      rw [List.getElem?_replicate]
      split <;> rfl
    rw [hz]
    simp [hp]

theorem roundUp_props (n w : Nat) (hw : w = 4 ∨ w = 8) : n ≤ roundUp n w ∧ roundUp n w % w = 0 ∧ roundUp n w < n + w := by
  unfold roundUp
  rcases hw with rfl | rfl <;> omega

/-! ### C90: sets of processors -/

/-- Whenever the bytes of a CPU set can be read, its members and nothing else are shown, in ascending order; if the set passed is
longer than what is read, `...` follows. -/
theorem affinity_shown (mem : Nat → Option Byte) (be : Bool) (w maxSize a len : Nat) (hw : w = 4 ∨ w = 8) (hm : maxSize % 8 = 0)
    (h0 : a ≠ 0) (ha : a < 2 ^ 64) (hr : Readable mem a (min len maxSize)) :
    ∃ is : List Nat, affinity mem be true false w maxSize a len = some (.set is (decide (maxSize < len))) ∧
      Lists is (InSet mem be w a (min len maxSize)) := by
  by_cases hl : len = 0
  · refine ⟨[], ?_, List.Pairwise.nil, fun i => ?_⟩
    · unfold affinity
      rw [if_neg (by simp [h0]), if_pos hl, hl]
      simp
    · constructor
      · intro h; cases h
      · rintro ⟨h, _⟩
        subst hl
        simp at h
  · obtain ⟨l, hl2⟩ := moven_readable mem (min len maxSize) a ha hr
    have hrp := roundUp_props (min len maxSize) w hw
    have hlen := (moven_get mem _ a l hl2 ha).1
    have harr : (l.map (fun b : Byte => b.val) ++ List.replicate (roundUp (min len maxSize) w - min len maxSize) 0).length =
        roundUp (min len maxSize) w := by
      simp [hlen]; omega
    refine ⟨_, ?_, lists_filter (roundUp (min len maxSize) w * 8)
      (fun i => bitX (l.map (·.val) ++ List.replicate (roundUp (min len maxSize) w - min len maxSize) 0) (xorMask be w) i) _
      (fun i => ?_)⟩
    · unfold affinity
      rw [if_neg (by simp [h0]), if_neg hl, hl2]
      simp only
      rw [scan_set _ be w _ hw (by rw [harr]; exact hrp.2.1) (Nat.le_of_eq (by rw [harr]))]
      simp only [Option.map_some, Option.some.injEq, Out.set.injEq, true_and]
      have : roundUp (min len maxSize) w < len ↔ maxSize < len := by
        unfold roundUp
        rcases hw with rfl | rfl <;> omega
      simp [this]
    · show _ ↔ _ ∧ bitX _ _ i = true
      rw [bitX_read mem be w a _ _ i l hw ha hl2]
      constructor
      · intro h
        refine ⟨?_, h⟩
        rw [← pos_lt be w i _ hw hrp.2.1]
        have := h.1
        omega
      · exact fun h => h.2

/-- Otherwise the address is shown, and nothing outside the buffer is ever read. -/
theorem affinity_addr (mem : Nat → Option Byte) (be vb err : Bool) (w maxSize a len : Nat) (ha : a < 2 ^ 64)
    (h : vb = false ∨ err = true ∨ a = 0 ∨ (len ≠ 0 ∧ ¬ Readable mem a (min len maxSize))) :
    affinity mem be vb err w maxSize a len = some (.addr a) := by
  unfold affinity
  by_cases h1 : vb = false ∨ err = true ∨ a = 0
  · rw [if_pos h1]
  · rw [if_neg h1]
    have h2 : len ≠ 0 ∧ ¬ Readable mem a (min len maxSize) := by
      rcases h with h | h | h | h
      · exact absurd (Or.inl h) h1
      · exact absurd (Or.inr (Or.inl h)) h1
      · exact absurd (Or.inr (Or.inr h)) h1
      · exact h
    rw [if_neg h2.1, moven_not mem _ a ha h2.2]

/-- a set of 10 bytes with the processors 1, 8 and 73, of which a tracer that knows of 64 shows the first two -/
example :
    let mem : Nat → Option Byte := fun x => if x = 100 then some 2 else if x = 101 then some 1 else if x = 109 then some 2
      else if 100 ≤ x ∧ x < 110 then some 0 else none
    affinity mem false true false 8 128 100 10 = some (.set [1, 8, 73] false) ∧
      affinity mem false true false 8 8 100 10 = some (.set [1, 8] true) ∧
      affinity mem true true false 8 8 100 10 = some (.set [48, 57] true) ∧
      affinity mem false true false 8 128 100 11 = some (.addr 100) := by decide +kernel

/-! ### C90: sets of event codes -/

theorem evdevBits_eq (maxNr rval : Nat) : evdevBits maxNr rval = min maxNr (8 * rval) := by
  unfold evdevBits
  split <;> omega

/-- Of the bytes returned, the members below the largest event code are shown, in ascending order, if all words that hold them can be read;
when abbreviating, the first four of them, and `...` if there are more.  What is missing of the full property: the largest event
code itself (`evdev_hides`) and the readability of the bytes returned alone (`evdev_overread`). -/
theorem evdev_shown_partial (mem : Nat → Option Byte) (be ab : Bool) (w maxNr a rval : Nat) (hw : w = 4 ∨ w = 8)
    (hn : 0 < maxNr) (hv : 0 < rval) (h0 : a ≠ 0) (ha : a < 2 ^ 64)
    (hr : Readable mem a (((min maxNr (8 * rval) + 7) / 8 + w - 1) / w * w)) :
    ∃ is : List Nat,
      Lists is (fun i => i < maxNr ∧ i < 8 * rval ∧ InSet mem be w a (((min maxNr (8 * rval) + 7) / 8 + w - 1) / w * w) i) ∧
      evdevSet mem be true false ab .brief w maxNr a rval =
        some (.set (if ab = true then is.take 4 else is) (ab && decide (4 < is.length))) ∧
      evdevSet mem be true false ab .verbose w maxNr a rval =
        some (.both (if ab = true then is.take 4 else is) (ab && decide (4 < is.length))
          (((min maxNr (8 * rval) + 7) / 8 + w - 1) / w)) ∧
      evdevSet mem be true false ab .raw w maxNr a rval = some (.words (((min maxNr (8 * rval) + 7) / 8 + w - 1) / w)) := by
  have hb := evdevBits_eq maxNr rval
  have hsz : evdevSize w maxNr rval = ((min maxNr (8 * rval) + 7) / 8 + w - 1) / w * w := by
    unfold evdevSize roundUp; rw [hb]
  have hdiv : evdevSize w maxNr rval / w = ((min maxNr (8 * rval) + 7) / 8 + w - 1) / w := by
    rw [hsz, Nat.mul_div_cancel _ (by omega)]
  have hrp := roundUp_props ((min maxNr (8 * rval) + 7) / 8) w hw
  rw [show roundUp ((min maxNr (8 * rval) + 7) / 8) w = evdevSize w maxNr rval by rw [hsz]; rfl] at hrp
  rw [← hsz] at hr ⊢
  obtain ⟨l, hl⟩ := moven_readable mem _ a ha hr
  have hlen := (moven_get mem _ a l hl ha).1
  have hf : fetch mem true a (evdevSize w maxNr rval) = some l := by
    unfold fetch
    rw [if_neg (by simp [h0]), hl]
  have hscan := scan_set (l.map (·.val)) be w (evdevBits maxNr rval) hw (by simp [hlen, hrp.2.1])
    (by rw [List.length_map, hlen, hb]; omega)
  have hne : evdevSize w maxNr rval ≠ 0 := by omega
  have hout : ∀ is : List Nat, evdevShown ab is = (if ab = true then is.take 4 else is, ab && decide (4 < is.length)) := by
    intro is
    unfold evdevShown
    cases ab <;> simp
  refine ⟨(List.range (evdevBits maxNr rval)).filter fun i => bitX (l.map (·.val)) (xorMask be w) i,
    lists_filter _ _ _ (fun i => ?_), ?_, ?_, ?_⟩
  · have hx := bitX_read mem be w a _ 0 i l hw ha hl
    rw [List.replicate_zero, List.append_nil] at hx
    show _ ↔ _ ∧ bitX _ _ i = true
    rw [hx, hb, Nat.lt_min, and_assoc]
  · unfold evdevSet
    rw [if_neg (by simp [hne]), hf]
    simp only
    rw [hscan, Option.map_some, hout]
  · unfold evdevSet
    rw [if_neg (by simp [hne]), hf]
    simp only
    rw [hscan, Option.map_some, hout, hdiv]
  · unfold evdevSet
    rw [if_neg (by simp [hne]), hf]
    simp only
    rw [hdiv]

/-- Of whole words all members below the largest code are shown, at the same place in memory whatever is returned beyond them. -/
theorem evdev_member (mem : Nat → Option Byte) (be : Bool) (w maxNr a rval i : Nat) (hw : w = 4 ∨ w = 8) (hv : rval % w = 0)
    (hi : i < maxNr) :
    (i < 8 * rval ∧ InSet mem be w a (((min maxNr (8 * rval) + 7) / 8 + w - 1) / w * w) i) ↔ InSet mem be w a rval i := by
  have hrp := roundUp_props ((min maxNr (8 * rval) + 7) / 8) w hw
  unfold roundUp at hrp
  constructor
  · rintro ⟨h1, h2⟩
    exact ⟨by rw [pos_lt be w i rval hw hv]; omega, h2.2⟩
  · rintro ⟨h1, h2⟩
    rw [pos_lt be w i rval hw hv] at h1
    exact ⟨by omega, by rw [pos_lt be w i _ hw hrp.2.1]; omega, h2⟩

/-- A failed call or nothing returned is shown as the address. -/
theorem evdev_addr (mem : Nat → Option Byte) (be vb err ab : Bool) (st : Style) (w maxNr a rval : Nat) (hw : w = 4 ∨ w = 8)
    (ha : a < 2 ^ 64)
    (h : err = true ∨ rval = 0 ∨ a = 0 ∨ vb = false ∨
      ¬ Readable mem a (((min maxNr (8 * rval) + 7) / 8 + w - 1) / w * w)) :
    evdevSet mem be vb err ab st w maxNr a rval = some (.addr a) := by
  have hsz : evdevSize w maxNr rval = ((min maxNr (8 * rval) + 7) / 8 + w - 1) / w * w := by
    unfold evdevSize roundUp; rw [evdevBits_eq]
  unfold evdevSet
  by_cases h1 : err = true ∨ evdevSize w maxNr rval = 0
  · rw [if_pos h1]
  · rw [if_neg h1]
    have hf : fetch mem vb a (evdevSize w maxNr rval) = none := by
      unfold fetch
      rcases h with h | h | h | h | h
      · exact absurd (Or.inl h) h1
      · exfalso
        apply h1
        right
        rw [hsz, h]
        rcases hw with rfl | rfl <;> simp
      · rw [if_pos (Or.inl h)]
      · rw [if_pos (Or.inr h)]
      · rw [← hsz] at h
        split
        · rfl
        · exact moven_not mem _ a ha h
    rw [hf]

/-- The full claim is false: the switch with the number 16, SW_MACHINE_COVER, is on in the eight bytes returned for EVIOCGSW or for
EVIOCGBIT(EV_SW), and the set is shown as empty, because the largest code is passed as the number of codes. -/
theorem evdev_hides :
    let mem : Nat → Option Byte := fun x => if x = 1002 then some 1 else some 0
    evdevMax 5 = some 16 ∧ InSet mem false 8 1000 8 16 ∧
      evdevSet mem false true false false .brief 8 16 1000 8 = some (.set [] false) := by
  refine ⟨rfl, ⟨by decide, 1, by decide, by decide⟩, by decide +kernel⟩

/-- Nor is it enough that the bytes returned can be read: the two bytes of switches returned for EVIOCGSW(2) at the end of the memory
are not shown, because whole words are read. -/
theorem evdev_overread :
    let mem : Nat → Option Byte := fun x => if x = 1000 ∨ x = 1001 then some 1 else none
    Readable mem 1000 2 ∧ evdevSet mem false true false false .brief 8 16 1000 2 = some (.addr 1000) := by
  refine ⟨fun i hi => ?_, by decide +kernel⟩
  have : i = 0 ∨ i = 1 := by omega
  rcases this with rfl | rfl <;> decide

/-- six keys, of which four are shown when abbreviating -/
example :
    let mem : Nat → Option Byte := fun x => if x = 1000 then some 0x7e else some 0
    evdevSet mem false true false true .brief 8 0x2ff 1000 96 = some (.set [1, 2, 3, 4] true) ∧
      evdevSet mem false true false false .brief 8 0x2ff 1000 96 = some (.set [1, 2, 3, 4, 5, 6] false) := by decide +kernel

/-! ### C90: node masks -/

/-- A node mask is shown by as many words as hold the bits below `maxnodes - 1`, the bits that the kernel looks at; it is shown as
its address exactly if there is no such bit or the number of bits is within a word of the largest integer. -/
theorem nodemask_shown (w a maxnodes : Nat) (hw : w = 4 ∨ w = 8) (hm : maxnodes < 2 ^ 64) :
    (maxnodes = 0 → nodemask w a maxnodes = .words 0) ∧
    (maxnodes = 1 ∨ 2 ^ 64 + 2 ≤ maxnodes + 8 * w → nodemask w a maxnodes = .addr a) ∧
    (2 ≤ maxnodes → maxnodes + 8 * w < 2 ^ 64 + 2 →
      ∃ n, nodemask w a maxnodes = .words n ∧ maxnodes - 1 ≤ n * (8 * w) ∧ (n - 1) * (8 * w) < maxnodes - 1 ∧ 0 < n) := by
  unfold nodemask
  refine ⟨?_, ?_, ?_⟩
  · rintro rfl
    rcases hw with rfl | rfl <;> simp
  · intro h
    rw [if_pos]
    rcases hw with rfl | rfl <;> omega
  · intro h1 h2
    rw [if_neg (by rcases hw with rfl | rfl <;> omega)]
    refine ⟨_, rfl, ?_⟩
    rcases hw with rfl | rfl <;> omega

example : nodemask 8 100 65 = .words 1 ∧ nodemask 8 100 66 = .words 2 ∧ nodemask 4 100 66 = .words 3 ∧
    nodemask 8 100 1 = .addr 100 ∧ nodemask 8 100 (2 ^ 64 - 1) = .addr 100 := by decide +kernel

end Strace.Sets
