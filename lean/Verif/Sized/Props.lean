import Verif.Sized.Spec
import Verif.Base.Bits
import Mathlib.Tactic.Common
import Mathlib.Tactic.Ring
/-!
# Structures with a size: what is shown
-/
namespace Strace.Sized

/-! ### Reading -/

theorem moven_passed (mem : Nat → Option Byte) (b : List Byte) :
    ∀ (n k a : Nat), Passed mem a b → k + n ≤ b.length → moven mem ((a + k) % 2 ^ 64) n = some ((b.drop k).take n) := by
  intro n
  induction n with
  | zero => intro k a _ _; simp [moven]
  | succ n ih =>
    intro k a h hk
    have h1 := h k (by omega)
    have h2 := ih (k + 1) a h (by omega)
    have e : ((a + k) % 2 ^ 64 + 1) % 2 ^ 64 = (a + (k + 1)) % 2 ^ 64 := by omega
    rw [moven, h1, e, h2]
    have hb : b[k]? = some b[k] := by simp
    rw [hb]
    have hd : b.drop k = b[k] :: b.drop (k + 1) := List.drop_eq_getElem_cons (by omega)
    rw [hd, List.take_succ_cons]

theorem moven_passed0 (mem : Nat → Option Byte) (b : List Byte) (n a : Nat) (h : Passed mem a b) (ha : a < 2 ^ 64)
    (hn : n ≤ b.length) : moven mem a n = some (b.take n) := by
  have := moven_passed mem b n 0 a h (by omega)
  rwa [Nat.add_zero, Nat.mod_eq_of_lt ha, List.drop_zero] at this

theorem fetch_passed (mem : Nat → Option Byte) (b : List Byte) (n a : Nat) (h : Passed mem a b) (h0 : a ≠ 0)
    (ha : a < 2 ^ 64) (hn : n ≤ b.length) : fetch mem true a n = some (b.take n) := by
  rw [fetch, if_neg (by simp [h0]), moven_passed0 mem b n a h ha hn]

theorem le_take (l : List Byte) :
    ∀ n, le (l.take n) = ((List.range n).map fun i => (l.getD i 0).val * 256 ^ i).sum := by
  induction l with
  | nil =>
    intro n
    have : ((List.range n).map fun i => (([] : List Byte).getD i 0).val * 256 ^ i) = (List.range n).map fun _ => 0 := by
      apply List.map_congr_left; intro i _; simp
    rw [this]; simp [le, List.map_const']
  | cons x l ih =>
    intro n
    cases n with
    | zero => simp [le]
    | succ n =>
      rw [List.take_succ_cons, le, ih n, List.range_succ_eq_map, List.map_cons, List.sum_cons, List.map_map]
      have : (fun i => ((x :: l).getD i 0).val * 256 ^ i) ∘ Nat.succ = fun i => 256 * ((l.getD i 0).val * 256 ^ i) := by
        funext i; simp [Nat.pow_succ]; ring_nf
      rw [this]
      have hs : ∀ (L : List Nat) (f : Nat → Nat), (L.map fun i => 256 * f i).sum = 256 * (L.map f).sum := by
        intro L f; induction L with
        | nil => rfl
        | cons y L ih => simp [ih, Nat.mul_add]
      rw [hs]; simp

theorem fld_numAt (b : List Byte) (off len : Nat) : fld b off len = numAt b off len := by
  rw [fld, le_take, numAt]; congr 1; apply List.map_congr_left; intro i _
  congr 2
  simp only [List.getD_eq_getElem?_getD, List.getElem?_drop]

/-- a field inside the bytes taken does not depend on what is after them -/
theorem numAt_take (b : List Byte) (off len n : Nat) (h : off + len ≤ n) : numAt (b.take n) off len = numAt b off len := by
  unfold numAt; congr 1; apply List.map_congr_left; intro i hi
  have hi' : off + i < n := by have := List.mem_range.mp hi; omega
  congr 2
  simp only [List.getD_eq_getElem?_getD, List.getElem?_take, if_pos hi']

theorem fld_take (b : List Byte) (off len n : Nat) (h : off + len ≤ n) : fld (b.take n) off len = numAt b off len := by
  rw [fld_numAt, numAt_take _ _ _ _ h]

/-! ### Reading the text -/

theorem shownAs_append (n : String) : ∀ (l r : List Tok), shownAs n (l ++ r) = shownAs n l ++ shownAs n r := by
  intro l r
  induction l with
  | nil => rfl
  | cons t l ih => cases t <;> simp only [List.cons_append, shownAs, ih] <;> split <;> rfl

theorem names_append (l r : List Tok) : names (l ++ r) = names l ++ names r := by
  induction l with
  | nil => rfl
  | cons t l ih => cases t <;> simp only [List.cons_append, names, ih]

theorem marks_append (l r : List Tok) : marks (l ++ r) = marks l ++ marks r := by
  induction l with
  | nil => rfl
  | cons t l ih => cases t <;> simp only [List.cons_append, marks, ih]

theorem shownAs_opt (n : String) (c : Bool) (l : List Tok) : shownAs n (opt c l) = if c = true then shownAs n l else [] := by
  unfold opt; split <;> rfl

theorem names_opt (c : Bool) (l : List Tok) : names (opt c l) = if c = true then names l else [] := by
  unfold opt; split <;> rfl

theorem marks_opt (c : Bool) (l : List Tok) : marks (opt c l) = if c = true then marks l else [] := by
  unfold opt; split <;> rfl

/-- an optional item after another one -/
theorem foldl_opt (c : Bool) (l : List Tok) (h : l.foldl step .have = .have) : (opt c l).foldl step .have = .have := by
  unfold opt; split
  · exact h
  · rfl

/-! ### The bytes after the fields -/

theorem nz_shownAs (n : String) (mem : Nat → Option Byte) (k : Nat) (a lo t : Nat) :
    shownAs n (nonzeroBytes mem k [.next] a lo t).1 = [] := by
  unfold nonzeroBytes
  split
  · rfl
  · split
    · rfl
    · split
      · rfl
      · simp only [List.cons_append, List.nil_append, shownAs, shownAs_opt]; split <;> rfl

theorem nz_names (mem : Nat → Option Byte) (k : Nat) (a lo t : Nat) : names (nonzeroBytes mem k [.next] a lo t).1 = [] := by
  unfold nonzeroBytes
  split
  · rfl
  · split
    · rfl
    · split
      · rfl
      · simp only [List.cons_append, List.nil_append, names, names_opt]; split <;> rfl

theorem nz_form (mem : Nat → Option Byte) (k : Nat) (a lo t : Nat) :
    (nonzeroBytes mem k [.next] a lo t).1.foldl step .have = .have := by
  unfold nonzeroBytes
  split
  · rfl
  · split
    · rfl
    · split
      · rfl
      · simp only [List.cons_append, List.nil_append, List.foldl_cons, step]; exact foldl_opt _ _ rfl

theorem nz_marks (mem : Nat → Option Byte) (k page : Nat) (a : Nat) (b : List Byte) (lo : Nat) (h : Passed mem a b) :
    tailMarks b lo page k (marks (nonzeroBytes mem k [.next] a lo (min b.length page)).1) := by
  unfold nonzeroBytes
  by_cases hlo : lo ≥ min b.length page
  · rw [if_pos hlo]; left
    refine ⟨?_, rfl⟩
    intro x hx
    have : (b.take page).drop lo = [] := by rw [List.drop_eq_nil_iff]; simp; omega
    rw [this] at hx; simp at hx
  · rw [if_neg hlo]
    have hm := moven_passed mem b (min b.length page - lo) lo a h (by omega)
    have he : (b.drop lo).take (min b.length page - lo) = (b.take page).drop lo := by
      rw [List.drop_take]
      by_cases hp : page ≤ b.length
      · rw [Nat.min_eq_right hp]
      · rw [Nat.min_eq_left (by omega), List.take_of_length_le (by simp), List.take_of_length_le (by simp; omega)]
    rw [he] at hm
    rw [hm]
    simp only
    have hlen : ((b.take page).drop lo).length = min b.length page - lo := by simp [Nat.min_comm]
    by_cases hz : ((b.take page).drop lo).all (· == 0) = true
    · rw [if_pos hz]; left
      refine ⟨?_, rfl⟩
      intro x hx
      have := List.all_eq_true.mp hz x hx
      simpa using this
    · rw [if_neg hz]; right
      constructor
      · by_contra hc
        push Not at hc
        apply hz
        rw [List.all_eq_true]
        intro x hx; simp [hc x hx]
      · by_cases hk : min b.length page - lo ≤ k
        · left
          refine ⟨hk, ?_⟩
          rw [Nat.min_eq_left hk, List.take_of_length_le (by omega)]
          simp [marks, opt]
        · right
          refine ⟨by omega, ?_⟩
          have hk' : k < min b.length page - lo := by omega
          rw [Nat.min_eq_right (Nat.le_of_lt hk')]
          simp only [decide_eq_true hk', opt, if_true, List.cons_append, List.nil_append, marks]

theorem tailMarks_small (b : List Byte) (lo page k : Nat) (h : b.length ≤ lo) : tailMarks b lo page k [] := by
  left
  refine ⟨?_, rfl⟩
  intro x hx
  have : (b.take page).drop lo = [] := by rw [List.drop_eq_nil_iff]; simp; omega
  rw [this] at hx; simp at hx

/-! ### Flags -/

theorem and_bit (n k : Nat) : (n &&& 2 ^ k ≠ 0) ↔ flagSet n k := by
  unfold flagSet
  rw [Base.and_two_pow_ne_zero, Nat.testBit_eq_decide_div_mod_eq, decide_eq_true_iff]

theorem and_or (n x y : Nat) : (n &&& (x ||| y) ≠ 0) ↔ n &&& x ≠ 0 ∨ n &&& y ≠ 0 := by
  rw [Nat.and_or_distrib_left]
  constructor
  · intro h
    by_contra hc
    push Not at hc
    rw [hc.1, hc.2] at h
    exact h rfl
  · intro h hz
    have := Nat.or_eq_zero_iff.mp hz
    omega

/-- O_CREAT (bit 6) or __O_TMPFILE (bit 22) -/
theorem and_create (n : Nat) : (n &&& 0x400040 ≠ 0) ↔ flagSet n 6 ∨ flagSet n 22 := by
  have e : (0x400040 : Nat) = 2 ^ 6 ||| 2 ^ 22 := by decide
  rw [e, and_or, and_bit, and_bit]

/-! ### openat2 -/

/-- the mode is left out if it is 0 and no file can be created -/
def openHowLeft (b : List Byte) (n : String) : Prop :=
  n = "mode" ∧ ¬ flagSet (numAt b 0 8) 6 ∧ ¬ flagSet (numAt b 0 8) 22 ∧ numAt b 8 8 = 0

theorem openHow_shown (mem : Nat → Option Byte) (page maxStr a : Nat) (b : List Byte) (h : Passed mem a b) (h0 : a ≠ 0)
    (ha : a < 2 ^ 64) (hl : 24 ≤ b.length) :
    Structure (openHow mem true page maxStr a b.length) ∧
    Shows (openHow mem true page maxStr a b.length) openHowLayout (openHowLeft b) b ∧
    tailMarks b 24 page maxStr (marks (openHow mem true page maxStr a b.length)) := by
  have hf := fetch_passed mem b (min b.length 24) a h h0 ha (by omega)
  rw [Nat.min_eq_right hl] at hf
  obtain ⟨c, hc, hcond⟩ : ∃ c, c = decide (numAt b 0 8 &&& 0x400040 ≠ 0 ∨ numAt b 8 8 ≠ 0) ∧
      (c = true ↔ ¬ openHowLeft b "mode") := by
    refine ⟨_, rfl, ?_⟩
    rw [decide_eq_true_iff, and_create]
    unfold openHowLeft
    tauto
  have e : openHow mem true page maxStr a b.length =
      [.opened, .field "flags" (numAt b 0 8)] ++
      opt c [.next, .field "mode" (numAt b 8 8)] ++
      [.next, .field "resolve" (numAt b 16 8)] ++
      opt (decide (b.length > 24)) (nonzeroBytes mem maxStr [.next] a 24 (min b.length page)).1 ++
      [.closed] := by
    rw [openHow, if_neg (by omega), Nat.min_eq_right hl, hf, hc]
    simp only [fld_take b 0 8 24 (by omega), fld_take b 8 8 24 (by omega), fld_take b 16 8 24 (by omega)]
  rw [e]
  clear hc
  refine ⟨?_, ⟨?_, ?_, ?_⟩, ?_⟩
  · simp only [Structure, List.foldl_append, List.foldl_cons, List.foldl_nil, step]
    rw [foldl_opt _ _ rfl]
    rw [foldl_opt _ _ (nz_form ..)]
  · intro e he hleft
    have hn := hleft.1
    rw [hn] at hleft ⊢
    have hc : c = false := by
      cases c
      · rfl
      · exact absurd hleft (hcond.mp rfl)
    simp [shownAs_append, shownAs_opt, shownAs, nz_shownAs, hc]
  · intro e he hleft
    simp only [openHowLayout, List.mem_cons, List.not_mem_nil, or_false] at he
    rcases he with rfl | rfl | rfl
    · simp [shownAs_append, shownAs_opt, shownAs, nz_shownAs]
    · simp [shownAs_append, shownAs_opt, shownAs, nz_shownAs, hcond.mpr hleft]
    · simp [shownAs_append, shownAs_opt, shownAs, nz_shownAs]
  · intro n hn
    simp only [names_append, names_opt, names, nz_names, ite_self, List.append_nil] at hn
    simp only [openHowLayout, List.map_cons, List.map_nil]
    split at hn <;> simp at hn ⊢ <;> tauto
  · simp only [marks_append, marks_opt, marks, ite_self, List.append_nil, List.nil_append]
    by_cases hg : b.length > 24
    · simp only [decide_eq_true hg, if_true]
      exact nz_marks mem maxStr page a b 24 h
    · simp only [decide_eq_false hg]
      exact tailMarks_small b 24 page maxStr (by omega)

/-! ### mount_setattr -/

theorem mountAttr_shown (mem : Nat → Option Byte) (page maxStr a : Nat) (b : List Byte) (h : Passed mem a b) (h0 : a ≠ 0)
    (ha : a < 2 ^ 64) (hl : 32 ≤ b.length) :
    Structure (mountAttr mem true page maxStr a b.length) ∧
    Shows (mountAttr mem true page maxStr a b.length) mountAttrLayout (fun _ => False) b ∧
    tailMarks b 32 page maxStr (marks (mountAttr mem true page maxStr a b.length)) := by
  have hf := fetch_passed mem b (min 32 b.length) a h h0 ha (by omega)
  rw [Nat.min_eq_left hl] at hf
  have e : mountAttr mem true page maxStr a b.length =
      [.opened, .field "attr_set" (numAt b 0 8), .next, .field "attr_clr" (numAt b 8 8), .next,
        .field "propagation" (numAt b 16 8), .next, .field "userns_fd" (numAt b 24 8)] ++
      opt (decide (b.length > 32)) (nonzeroBytes mem maxStr [.next] a 32 (min b.length page)).1 ++
      [.closed] := by
    rw [mountAttr, if_neg (by omega), Nat.min_eq_left hl, hf]
    simp only [fld_take b 0 8 32 (by omega), fld_take b 8 8 32 (by omega), fld_take b 16 8 32 (by omega),
      fld_take b 24 8 32 (by omega)]
  rw [e]
  refine ⟨?_, ⟨fun _ _ h => h.elim, ?_, ?_⟩, ?_⟩
  · simp only [Structure, List.foldl_append, List.foldl_cons, List.foldl_nil, step]
    rw [foldl_opt _ _ (nz_form ..)]
  · intro e he _
    simp only [mountAttrLayout, List.mem_cons, List.not_mem_nil, or_false] at he
    rcases he with rfl | rfl | rfl | rfl <;> simp [shownAs_append, shownAs_opt, shownAs, nz_shownAs]
  · intro n hn
    simp only [names_append, names_opt, names, nz_names, ite_self, List.append_nil] at hn
    simp only [mountAttrLayout, List.map_cons, List.map_nil]
    exact hn
  · simp only [marks_append, marks_opt, marks, List.append_nil, List.nil_append]
    by_cases hg : b.length > 32
    · simp only [decide_eq_true hg, if_true]
      exact nz_marks mem maxStr page a b 32 h
    · simp only [decide_eq_false hg]
      exact tailMarks_small b 32 page maxStr (by omega)

/-! ### setxattrat -/

theorem xattrArgs_shown (mem : Nat → Option Byte) (page maxStr a : Nat) (b : List Byte) (h : Passed mem a b) (h0 : a ≠ 0)
    (ha : a < 2 ^ 64) (hl : 16 ≤ b.length) :
    Structure (xattrArgs mem true page maxStr a b.length) ∧
    Shows (xattrArgs mem true page maxStr a b.length) xattrLayout (fun _ => False) b ∧
    tailMarks b 16 page maxStr (marks (xattrArgs mem true page maxStr a b.length)) := by
  have hf := fetch_passed mem b (min b.length 16) a h h0 ha (by omega)
  rw [Nat.min_eq_right hl] at hf
  have e : xattrArgs mem true page maxStr a b.length =
      [.opened, .field "value" (numAt b 0 8), .next, .field "size" (numAt b 8 4), .next, .field "flags" (numAt b 12 4)] ++
      opt (decide (b.length > 16)) (nonzeroBytes mem maxStr [.next] a 16 (min b.length page)).1 ++
      [.closed] := by
    rw [xattrArgs, if_neg (by omega), Nat.min_eq_right hl, hf]
    simp only [fld_take b 0 8 16 (by omega), fld_take b 8 4 16 (by omega), fld_take b 12 4 16 (by omega)]
  rw [e]
  refine ⟨?_, ⟨fun _ _ h => h.elim, ?_, ?_⟩, ?_⟩
  · simp only [Structure, List.foldl_append, List.foldl_cons, List.foldl_nil, step]
    rw [foldl_opt _ _ (nz_form ..)]
  · intro e he _
    simp only [xattrLayout, List.mem_cons, List.not_mem_nil, or_false] at he
    rcases he with rfl | rfl | rfl <;> simp [shownAs_append, shownAs_opt, shownAs, nz_shownAs]
  · intro n hn
    simp only [names_append, names_opt, names, nz_names, ite_self, List.append_nil] at hn
    simp only [xattrLayout, List.map_cons, List.map_nil]
    exact hn
  · simp only [marks_append, marks_opt, marks, List.append_nil, List.nil_append]
    by_cases hg : b.length > 16
    · simp only [decide_eq_true hg, if_true]
      exact nz_marks mem maxStr page a b 16 h
    · simp only [decide_eq_false hg]
      exact tailMarks_small b 16 page maxStr (by omega)

/-! ### listmount and statmount -/

/-- the spare field is left out if it is 0, the namespace if the structure is too short for all of it -/
def mntLeft (b : List Byte) (n : String) : Prop :=
  n = "spare" ∧ numAt b 4 4 = 0 ∨ n = "mnt_ns_id" ∧ b.length < 32

theorem numAt_take_min (b : List Byte) (off len n : Nat) (h : off + len ≤ n) :
    numAt (b.take (min n b.length)) off len = numAt b off len := by
  rw [Nat.min_comm]
  by_cases hl : b.length ≤ n
  · rw [Nat.min_eq_left hl, List.take_length]
  · rw [Nat.min_eq_right (by omega), numAt_take _ _ _ _ h]

theorem mntIdReq_shown (mem : Nat → Option Byte) (page maxStr a : Nat) (b : List Byte) (h : Passed mem a b) (h0 : a ≠ 0)
    (ha : a < 2 ^ 64) (hs : numAt b 0 4 = b.length) (hl : 24 ≤ b.length) :
    Structure (mntIdReq mem true page maxStr a) ∧
    Shows (mntIdReq mem true page maxStr a) mntLayout (mntLeft b) b ∧
    tailMarks b 32 page maxStr (marks (mntIdReq mem true page maxStr a)) := by
  have hf := fetch_passed mem b 4 a h h0 ha (by omega)
  have hm := moven_passed0 mem b (min 32 b.length) a h ha (by omega)
  obtain ⟨c, hc, hcond⟩ : ∃ c, c = decide (numAt b 4 4 ≠ 0) ∧ (c = true ↔ ¬ numAt b 4 4 = 0) :=
    ⟨_, rfl, by rw [decide_eq_true_iff]⟩
  obtain ⟨g, hg, hgond⟩ : ∃ g, g = decide (b.length ≥ 32) ∧ (g = true ↔ ¬ b.length < 32) :=
    ⟨_, rfl, by rw [decide_eq_true_iff]; omega⟩
  have e : mntIdReq mem true page maxStr a =
      [.opened, .field "size" (numAt b 0 4)] ++
      (opt c [.next, .field "spare" (numAt b 4 4)] ++
        [.next, .field "mnt_id" (numAt b 8 8), .next, .field "param" (numAt b 16 8)] ++
        opt g [.next, .field "mnt_ns_id" (numAt b 24 8)] ++
        opt (decide (b.length > 32)) (nonzeroBytes mem maxStr [.next] a 32 (min b.length page)).1) ++
      [.closed] := by
    rw [mntIdReq, hf]
    simp only [fld_take b 0 4 4 (by omega)]
    rw [if_neg (by omega), hs, hm]
    simp only [fld_numAt]
    rw [numAt_take_min b 4 4 32 (by omega), numAt_take_min b 8 8 32 (by omega), numAt_take_min b 16 8 32 (by omega),
      numAt_take_min b 24 8 32 (by omega), hc, hg]
  rw [e]
  clear hc hg e hf hm
  refine ⟨?_, ⟨?_, ?_, ?_⟩, ?_⟩
  · simp only [Structure, List.foldl_append, List.foldl_cons, List.foldl_nil, step]
    rw [foldl_opt _ _ rfl, foldl_opt _ _ rfl, foldl_opt _ _ (nz_form ..)]
  · intro e he hleft
    rcases hleft with ⟨hn, h1⟩ | ⟨hn, h1⟩
    · have hc : c = false := by
        cases c
        · rfl
        · exact absurd h1 (hcond.mp rfl)
      rw [hn]
      simp [shownAs_append, shownAs_opt, shownAs, nz_shownAs, hc]
    · have hc : g = false := by
        cases g
        · rfl
        · exact absurd h1 (hgond.mp rfl)
      rw [hn]
      simp [shownAs_append, shownAs_opt, shownAs, nz_shownAs, hc]
  · intro e he hleft
    simp only [mntLayout, List.mem_cons, List.not_mem_nil, or_false] at he
    rcases he with rfl | rfl | rfl | rfl | rfl
    · simp [shownAs_append, shownAs_opt, shownAs, nz_shownAs]
    · have : c = true := hcond.mpr fun h => hleft (Or.inl ⟨rfl, h⟩)
      simp [shownAs_append, shownAs_opt, shownAs, nz_shownAs, this]
    · simp [shownAs_append, shownAs_opt, shownAs, nz_shownAs]
    · simp [shownAs_append, shownAs_opt, shownAs, nz_shownAs]
    · have : g = true := hgond.mpr fun h => hleft (Or.inr ⟨rfl, h⟩)
      simp [shownAs_append, shownAs_opt, shownAs, nz_shownAs, this]
  · intro n hn
    simp only [names_append, names_opt, names, nz_names, ite_self, List.append_nil] at hn
    simp only [mntLayout, List.map_cons, List.map_nil]
    cases c <;> cases g <;> simp at hn ⊢ <;> tauto
  · simp only [marks_append, marks_opt, marks, ite_self, List.append_nil, List.nil_append]
    by_cases hg : b.length > 32
    · simp only [decide_eq_true hg, if_true]
      exact nz_marks mem maxStr page a b 32 h
    · simp only [decide_eq_false hg]
      exact tailMarks_small b 32 page maxStr (by omega)

/-! ### The text determines the structure -/

/-- a field left out of neither of two texts that are the same has the same value -/
theorem determines {out : List Tok} {layout : List (String × Nat × Nat)} {l1 l2 : String → Prop} {b1 b2 : List Byte}
    (h1 : Shows out layout l1 b1) (h2 : Shows out layout l2 b2) :
    ∀ e ∈ layout, (l1 e.1 ↔ l2 e.1) ∧ (¬ l1 e.1 → numAt b1 e.2.1 e.2.2 = numAt b2 e.2.1 e.2.2) := by
  intro e he
  have a1 := h1.1 e he
  have a2 := h2.1 e he
  have c1 := h1.2.1 e he
  have c2 := h2.2.1 e he
  by_cases x1 : l1 e.1 <;> by_cases x2 : l2 e.1
  · exact ⟨by tauto, fun h => absurd x1 h⟩
  · have := a1 x1; rw [c2 x2] at this; simp at this
  · have := a2 x2; rw [c1 x1] at this; simp at this
  · refine ⟨by tauto, fun _ => ?_⟩
    have := c1 x1; rw [c2 x2] at this; simpa using this.symm

theorem le_inj : ∀ (l r : List Byte), l.length = r.length → le l = le r → l = r := by
  intro l
  induction l with
  | nil => intro r h _; cases r with
    | nil => rfl
    | cons y r => simp at h
  | cons x l ih =>
    intro r h e
    cases r with
    | nil => simp at h
    | cons y r =>
      simp only [le] at e
      have hx := x.isLt
      have hy := y.isLt
      have hv : x.val = y.val := by omega
      have hl : le l = le r := by omega
      rw [Fin.ext hv, ih r (by simpa using h) hl]

theorem slice_eq (b1 b2 : List Byte) (off len : Nat) (hl : b1.length = b2.length) (h : off + len ≤ b1.length)
    (e : numAt b1 off len = numAt b2 off len) : (b1.drop off).take len = (b2.drop off).take len := by
  rw [← fld_numAt, ← fld_numAt] at e
  exact le_inj _ _ (by simp; omega) e

theorem split_eq (b1 b2 : List Byte) (k n : Nat) (h1 : b1.take k = b2.take k) (h2 : (b1.drop k).take n = (b2.drop k).take n) :
    b1.take (k + n) = b2.take (k + n) := by
  rw [List.take_add, List.take_add, h1, h2]

/-- the marks of two structures of the same size, not longer than what is shown, are the same only if the bytes are -/
theorem tail_eq (b1 b2 : List Byte) (lo page k : Nat) (m : List Tok) (hl : b1.length = b2.length) (hp : b1.length ≤ page)
    (hk : b1.length - lo ≤ k) (h1 : tailMarks b1 lo page k m) (h2 : tailMarks b2 lo page k m) :
    b1.drop lo = b2.drop lo := by
  have t1 : b1.take page = b1 := List.take_of_length_le hp
  have t2 : b2.take page = b2 := List.take_of_length_le (by omega)
  have zero : ∀ b : List Byte, (∀ x ∈ b, x = 0) → b = List.replicate b.length 0 := by
    intro b hb
    exact List.eq_replicate_iff.mpr ⟨rfl, hb⟩
  unfold tailMarks at h1 h2
  rw [t1] at h1
  rw [t2] at h2
  rcases h1 with ⟨z1, e1⟩ | ⟨_, ⟨_, e1⟩ | ⟨g, _⟩⟩ <;> rcases h2 with ⟨z2, e2⟩ | ⟨_, ⟨_, e2⟩ | ⟨g', _⟩⟩
  · rw [zero _ z1, zero _ z2]; simp [hl]
  · rw [e1] at e2; simp at e2
  · omega
  · rw [e2] at e1; simp at e1
  · rw [e1] at e2; simp at e2; exact e2.2
  all_goals omega

/-- The text of an openat2 structure determines it, if it is not longer than a page and its end is not abbreviated. -/
theorem openHow_determines (mem mem' : Nat → Option Byte) (page maxStr a a' : Nat) (b b' : List Byte)
    (h : Passed mem a b) (h' : Passed mem' a' b') (h0 : a ≠ 0) (h0' : a' ≠ 0) (ha : a < 2 ^ 64) (ha' : a' < 2 ^ 64)
    (hl : 24 ≤ b.length) (hs : b.length = b'.length) (hp : b.length ≤ page) (hk : b.length - 24 ≤ maxStr)
    (heq : openHow mem true page maxStr a b.length = openHow mem' true page maxStr a' b'.length) : b = b' := by
  obtain ⟨_, s1, m1⟩ := openHow_shown mem page maxStr a b h h0 ha hl
  obtain ⟨_, s2, m2⟩ := openHow_shown mem' page maxStr a' b' h' h0' ha' (by omega)
  rw [heq] at s1 m1
  have d := determines s1 s2
  have f1 := (d ("flags", 0, 8) (by simp [openHowLayout])).2 (by simp [openHowLeft])
  have f3 := (d ("resolve", 16, 8) (by simp [openHowLayout])).2 (by simp [openHowLeft])
  have dm := d ("mode", 8, 8) (by simp [openHowLayout])
  have f2 : numAt b 8 8 = numAt b' 8 8 := by
    by_cases hm : openHowLeft b "mode"
    · rw [hm.2.2.2, (dm.1.mp hm).2.2.2]
    · exact dm.2 hm
  have t := tail_eq b b' 24 page maxStr _ hs hp hk m1 m2
  have q1 := slice_eq b b' 0 8 hs (by omega) f1
  have q2 := slice_eq b b' 8 8 hs (by omega) f2
  have q3 := slice_eq b b' 16 8 hs (by omega) f3
  have r1 := split_eq b b' 8 8 (by simpa using q1) q2
  have r2 := split_eq b b' 16 8 r1 q3
  rw [← List.take_append_drop 24 b, ← List.take_append_drop 24 b', r2, t]

theorem mountAttr_determines (mem mem' : Nat → Option Byte) (page maxStr a a' : Nat) (b b' : List Byte)
    (h : Passed mem a b) (h' : Passed mem' a' b') (h0 : a ≠ 0) (h0' : a' ≠ 0) (ha : a < 2 ^ 64) (ha' : a' < 2 ^ 64)
    (hl : 32 ≤ b.length) (hs : b.length = b'.length) (hp : b.length ≤ page) (hk : b.length - 32 ≤ maxStr)
    (heq : mountAttr mem true page maxStr a b.length = mountAttr mem' true page maxStr a' b'.length) : b = b' := by
  obtain ⟨_, s1, m1⟩ := mountAttr_shown mem page maxStr a b h h0 ha hl
  obtain ⟨_, s2, m2⟩ := mountAttr_shown mem' page maxStr a' b' h' h0' ha' (by omega)
  rw [heq] at s1 m1
  have d := determines s1 s2
  have f1 := (d ("attr_set", 0, 8) (by simp [mountAttrLayout])).2 (by simp)
  have f2 := (d ("attr_clr", 8, 8) (by simp [mountAttrLayout])).2 (by simp)
  have f3 := (d ("propagation", 16, 8) (by simp [mountAttrLayout])).2 (by simp)
  have f4 := (d ("userns_fd", 24, 8) (by simp [mountAttrLayout])).2 (by simp)
  have t := tail_eq b b' 32 page maxStr _ hs hp hk m1 m2
  have q1 := slice_eq b b' 0 8 hs (by omega) f1
  have q2 := slice_eq b b' 8 8 hs (by omega) f2
  have q3 := slice_eq b b' 16 8 hs (by omega) f3
  have q4 := slice_eq b b' 24 8 hs (by omega) f4
  have r1 := split_eq b b' 8 8 (by simpa using q1) q2
  have r2 := split_eq b b' 16 8 r1 q3
  have r3 := split_eq b b' 24 8 r2 q4
  rw [← List.take_append_drop 32 b, ← List.take_append_drop 32 b', r3, t]

/-- For listmount and statmount this holds if the structure has the size of a published version, or is longer. -/
theorem mntIdReq_determines_partial (mem mem' : Nat → Option Byte) (page maxStr a a' : Nat) (b b' : List Byte)
    (h : Passed mem a b) (h' : Passed mem' a' b') (h0 : a ≠ 0) (h0' : a' ≠ 0) (ha : a < 2 ^ 64) (ha' : a' < 2 ^ 64)
    (hsz : numAt b 0 4 = b.length) (hsz' : numAt b' 0 4 = b'.length)
    (hl : b.length = 24 ∨ 32 ≤ b.length) (hl' : b'.length = 24 ∨ 32 ≤ b'.length)
    (hp : b.length ≤ page) (hk : b.length - 32 ≤ maxStr)
    (heq : mntIdReq mem true page maxStr a = mntIdReq mem' true page maxStr a') : b = b' := by
  obtain ⟨_, s1, m1⟩ := mntIdReq_shown mem page maxStr a b h h0 ha hsz (by omega)
  obtain ⟨_, s2, m2⟩ := mntIdReq_shown mem' page maxStr a' b' h' h0' ha' hsz' (by omega)
  rw [heq] at s1 m1
  have d := determines s1 s2
  have f1 := (d ("size", 0, 4) (by simp [mntLayout])).2 (by simp [mntLeft])
  have f3 := (d ("mnt_id", 8, 8) (by simp [mntLayout])).2 (by simp [mntLeft])
  have f4 := (d ("param", 16, 8) (by simp [mntLayout])).2 (by simp [mntLeft])
  have hs : b.length = b'.length := by simp only at f1; omega
  have dm := d ("spare", 4, 4) (by simp [mntLayout])
  have f2 : numAt b 4 4 = numAt b' 4 4 := by
    by_cases hm : mntLeft b "spare"
    · have hm' := dm.1.mp hm
      simp [mntLeft] at hm hm'
      rw [hm, hm']
    · exact dm.2 hm
  have q1 := slice_eq b b' 0 4 hs (by omega) f1
  have q2 := slice_eq b b' 4 4 hs (by omega) f2
  have q3 := slice_eq b b' 8 8 hs (by omega) f3
  have q4 := slice_eq b b' 16 8 hs (by omega) f4
  have r1 := split_eq b b' 4 4 (by simpa using q1) q2
  have r2 := split_eq b b' 8 8 r1 q3
  have r3 := split_eq b b' 16 8 r2 q4
  by_cases hlen : b.length = 24
  · rw [List.take_of_length_le (by omega), List.take_of_length_le (by omega)] at r3
    exact r3
  · have f5 := (d ("mnt_ns_id", 24, 8) (by simp [mntLayout])).2 (by simp [mntLeft]; omega)
    have q5 := slice_eq b b' 24 8 hs (by omega) f5
    have r4 := split_eq b b' 24 8 r3 q5
    have t := tail_eq b b' 32 page maxStr _ hs hp hk m1 m2
    rw [← List.take_append_drop 32 b, ← List.take_append_drop 32 b', r4, t]

/-- memory that holds bytes at an address and nothing else -/
def memOf (a : Nat) (b : List Byte) (x : Nat) : Option Byte := if a ≤ x then b[x - a]? else none

theorem memOf_passed (a : Nat) (b : List Byte) (h : a + b.length ≤ 2 ^ 64) : Passed (memOf a b) a b := by
  intro i hi
  rw [memOf, Nat.mod_eq_of_lt (by omega), if_pos (by omega), Nat.add_sub_cancel_left]

/-- Two requests of 28 bytes that differ in the part of the namespace they have give the same text. -/
theorem mntIdReq_short_hidden : ∃ b b' : List Byte, b ≠ b' ∧ b.length = 28 ∧ b'.length = 28 ∧ numAt b 0 4 = 28 ∧
    numAt b' 0 4 = 28 ∧ mntIdReq (memOf 0x1000 b) true 4096 32 0x1000 = mntIdReq (memOf 0x1000 b') true 4096 32 0x1000 := by
  refine ⟨28 :: List.replicate 27 0, (28 :: List.replicate 23 0) ++ [1, 2, 3, 4], ?_, ?_, ?_, ?_, ?_, ?_⟩ <;>
    decide +kernel

end Strace.Sized
