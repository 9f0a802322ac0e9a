import Verif.Memc.Spec
import Verif.Prctl.Props

/-!
# Proofs about the calls about memory
-/
namespace Strace.Memc

open Strace.Prctl (umoven number)
open Strace.Memc.Spec

theorem is_int (a : Nat) : Is .int a (int a) := by
  simp only [Is, int]
  have h := Nat.div_add_mod a (2 ^ 32)
  have h2 := Nat.mod_lt a (show 0 < 2 ^ 32 by decide)
  split
  · refine ⟨by omega, by omega, (a / 2 ^ 32 : Nat), by omega⟩
  · refine ⟨by omega, by omega, (a / 2 ^ 32 : Nat) + 1, by omega⟩

theorem is_uint (a : Nat) : Is .uint a (a % 2 ^ 32 : Nat) := by
  simp only [Is]
  have h := Nat.div_add_mod a (2 ^ 32)
  have h2 := Nat.mod_lt a (show 0 < 2 ^ 32 by decide)
  exact ⟨by omega, by omega, (a / 2 ^ 32 : Nat), by omega⟩

theorem is_long (a : Nat) : Is .long a (a : Int) := rfl

/-- **The arguments of the calls about memory are shown as what the kernel takes them for**: each in its place, the descriptors
and keys as `int`, the flags and advices that are 32-bit numbers without what the register holds beyond; what follows them is
the offset of mmap, the new address of mremap and the vector of mincore. -/
theorem arguments {s : Sys} (h1 : s ≠ .oldMmap) (h2 : s ≠ .oldMmapPgoff) (c : Call) :
    Shown (params s) c.arg ((run s c).drop (params s).length) (run s c) := by
  cases s
  case oldMmap => exact absurd rfl h1
  case oldMmapPgoff => exact absurd rfl h2
  all_goals
    simp only [params, run, printMmap, Shown, List.cons_append, List.nil_append, List.length_cons, List.length_nil,
      List.drop_succ_cons, List.drop_zero]
    repeat' first
      | exact is_int _ | exact is_uint _ | exact is_long _
      | refine ⟨_, _, rfl, ?_, ?_⟩
      | rfl

/-- **The calls that have no more parameters show no more.** -/
theorem no_more {s : Sys} (h : s ∉ [.oldMmap, .oldMmapPgoff, .mmap, .mmapPgoff, .mmap4koff, .mremap, .mincore]) (c : Call) :
    (run s c).length = (params s).length := by
  cases s <;> first | rfl | (exfalso; exact h (by decide))

/-! ## The offset of mmap -/

theorem printMmap_drop (u : Nat → Nat) (o : Nat) : (printMmap u o).drop 5 = [.val .offset (o % 2 ^ 64 : Nat)] := rfl

/-- **The offset of mmap is shown in bytes**, whatever the unit it is given in, if it is less than 2^64 bytes: in particular
for every 32-bit program. -/
theorem offset_bytes_partial {s : Sys} (hs : s ∈ [.mmap, .mmapPgoff, .mmap4koff]) {c : Call}
    (hu : c.arg 5 * unit s c.page < 2 ^ 64) :
    (run s c).drop 5 = [.val .offset (c.arg 5 * unit s c.page : Nat)] := by
  simp only [List.mem_cons, List.not_mem_nil, or_false] at hs
  rcases hs with h | h | h <;> subst h
  · simp only [unit, Nat.mul_one] at hu ⊢
    rw [run, printMmap_drop, Nat.mod_eq_of_lt hu]
  · simp only [unit] at hu ⊢
    rw [run, printMmap_drop, Nat.mod_eq_of_lt hu]
  · simp only [unit] at hu ⊢
    rw [run, printMmap_drop, Nat.shiftLeft_eq, Nat.mod_eq_of_lt (by omega)]

/-- For a 32-bit program, and pages of up to 4 GiB, the offset is always less than that. -/
theorem offset_narrow {s : Sys} (hs : s ∈ [.mmap, .mmapPgoff, .mmap4koff]) {c : Call} (ha : c.arg 5 < 2 ^ 32)
    (hp : c.page < 2 ^ 32) : c.arg 5 * unit s c.page < 2 ^ 64 := by
  have key : ∀ u, u < 2 ^ 32 → c.arg 5 * u < 2 ^ 64 := by
    intro u hu
    calc c.arg 5 * u ≤ c.arg 5 * 2 ^ 32 := Nat.mul_le_mul_left _ (by omega)
      _ < 2 ^ 32 * 2 ^ 32 := Nat.mul_lt_mul_of_pos_right ha (by decide)
      _ = 2 ^ 64 := by decide
  simp only [List.mem_cons, List.not_mem_nil, or_false] at hs
  rcases hs with h | h | h <;> subst h
  · exact key 1 (by decide)
  · exact key c.page hp
  · exact key 4096 (by decide)

/-- An offset in pages that is 2^64 bytes is shown as 0 (mmap2 of ia64, mem.c:196-205). -/
theorem offset_wraps : ∃ c : Call, c.arg 5 < 2 ^ 64 ∧ c.page = 4096 ∧ c.arg 5 * c.page = 2 ^ 64
    ∧ (run .mmapPgoff c).drop 5 = [.val .offset 0] :=
  ⟨⟨fun _ => 2 ^ 52, fun _ => none, false, 8, 4096, none⟩, by decide, rfl, by decide, by decide⟩

/-! ## Arguments in memory -/

theorem word_succ (m : Nat → Option Nat) (a w : Nat) : word m a (w + 1) = (m a).getD 0 + 256 * word m (a + 1) w := by
  have key : ∀ (l : List Nat), (l.map fun k => (m (a + (k + 1))).getD 0 * 256 ^ (k + 1)).sum
      = 256 * (l.map fun k => (m (a + 1 + k)).getD 0 * 256 ^ k).sum := by
    intro l
    induction l with
    | nil => rfl
    | cons k r ih =>
      simp only [List.map_cons, List.sum_cons, ih, Nat.mul_add]
      rw [show a + (k + 1) = a + 1 + k by omega, Nat.pow_succ]
      congr 1
      rw [← Nat.mul_assoc, Nat.mul_comm]
  simp only [word, List.range_succ_eq_map, List.map_cons, List.sum_cons, List.map_map, Nat.add_zero, Nat.pow_zero,
    Nat.mul_one]
  congr 1
  exact key (List.range w)

theorem number_word {m : Nat → Option Nat} : ∀ {n a : Nat} {l : List Nat}, umoven m a n = some l → number l = word m a n
  | 0, _, l, h => by cases h; rfl
  | n + 1, a, l, h => by
    simp only [umoven] at h
    split at h
    · rename_i b t hb ht
      cases h
      rw [word_succ, number, number_word ht, hb]
      rfl
    · cases h

theorem umoven_part {m : Nat → Option Nat} {a n k w : Nat} {l : List Nat} (h : umoven m a n = some l) (hk : k + w ≤ n) :
    umoven m (a + k) w = some ((l.drop k).take w) := by
  rw [show n = k + (n - k) by omega] at h
  have h1 := (Prctl.umoven_take h).2
  rw [show n - k = w + (n - k - w) by omega] at h1
  exact (Prctl.umoven_take h1).1

/-- The words that are read. -/
theorem indirect_words {c : Call} (hw : c.word = 8 ∨ c.word = 4) {a n : Nat} (hr : ∀ i, i < c.word * n → (c.mem (a + i)).isSome) :
    ∃ u, indirect c a n = some u ∧ ∀ i, i < n → u i = word c.mem (a + c.word * i) c.word := by
  unfold indirect
  rcases hw with hw | hw
  · rw [hw] at hr ⊢
    obtain ⟨l, hl, -⟩ := Prctl.umoven_le (m := c.mem) (n := 8 * n) (a := a) hr
    refine ⟨_, by rw [if_pos rfl, hl]; rfl, fun i hi => ?_⟩
    exact number_word (umoven_part hl (by omega))
  · rw [hw] at hr ⊢
    obtain ⟨l, hl, -⟩ := Prctl.umoven_le (m := c.mem) (n := 4 * n) (a := a) hr
    refine ⟨_, by rw [if_neg (by decide), hl]; rfl, fun i hi => ?_⟩
    exact number_word (umoven_part hl (by omega))

/-- **The arguments of the old mmap are shown from memory**: the six words at the address, with the offset in bytes. -/
theorem indirect_mmap {s : Sys} (hs : s ∈ [.oldMmap, .oldMmapPgoff]) {c : Call} (hw : c.word = 8 ∨ c.word = 4)
    (hr : ∀ i, i < c.word * 6 → (c.mem (c.arg 0 + i)).isSome)
    (hu : word c.mem (c.arg 0 + c.word * 5) c.word * unit s c.page < 2 ^ 64) :
    Shown [(.addr, .long), (.len, .long), (.prot, .long), (.flags, .long), (.fd, .int), (.offset, .long)]
      (fun i => if i = 5 then word c.mem (c.arg 0 + c.word * 5) c.word * unit s c.page
        else word c.mem (c.arg 0 + c.word * i) c.word) [] (run s c) := by
  obtain ⟨u, h1, h2⟩ := indirect_words hw (n := 6) hr
  have e0 := h2 0 (by decide); have e1 := h2 1 (by decide); have e2 := h2 2 (by decide)
  have e3 := h2 3 (by decide); have e4 := h2 4 (by decide); have e5 := h2 5 (by decide)
  simp only [List.mem_cons, List.not_mem_nil, or_false] at hs
  rcases hs with h | h <;> subst h
  · simp only [unit, Nat.mul_one] at hu
    simp only [run, h1, printMmap, Shown, e0, e1, e2, e3, e4, e5, unit, Nat.mul_one, Nat.mod_eq_of_lt hu]
    have hfd := is_int (word c.mem (c.arg 0 + c.word * 4) c.word)
    exact ⟨_, _, rfl, by simp [Is], _, _, rfl, by simp [Is], _, _, rfl, by simp [Is], _, _, rfl, by simp [Is], _, _, rfl,
      by simpa using hfd, _, _, rfl, by simp [Is], rfl⟩
  · simp only [unit] at hu
    simp only [run, h1, printMmap, Shown, e0, e1, e2, e3, e4, e5, unit, Nat.mod_eq_of_lt hu]
    have hfd := is_int (word c.mem (c.arg 0 + c.word * 4) c.word)
    exact ⟨_, _, rfl, by simp [Is], _, _, rfl, by simp [Is], _, _, rfl, by simp [Is], _, _, rfl, by simp [Is], _, _, rfl,
      by simpa using hfd, _, _, rfl, by simp [Is], rfl⟩

/-- If the six words cannot all be read, their address is shown. -/
theorem indirect_address {s : Sys} (hs : s ∈ [.oldMmap, .oldMmapPgoff]) {c : Call} (hw : c.word = 8 ∨ c.word = 4)
    (hr : ¬ ∀ i, i < c.word * 6 → (c.mem (c.arg 0 + i)).isSome) : run s c = [.val .where_ (c.arg 0)] := by
  have hn : indirect c (c.arg 0) 6 = none := by
    unfold indirect
    rcases hw with hw | hw
    · rw [hw] at hr ⊢
      rw [if_pos rfl, Prctl.umoven_none hr]; rfl
    · rw [hw] at hr ⊢
      rw [if_neg (by decide), Prctl.umoven_none hr]; rfl
  simp only [List.mem_cons, List.not_mem_nil, or_false] at hs
  rcases hs with h | h <;> subst h <;> simp [run, hn]

/-! ## mremap -/

theorem and_ne_zero_iff (a b : Nat) : a &&& b ≠ 0 ↔ ∃ i, a.testBit i = true ∧ b.testBit i = true := by
  constructor
  · intro h
    apply Classical.byContradiction
    intro hn
    apply h
    apply Nat.eq_of_testBit_eq
    intro i
    rw [Nat.testBit_and, Nat.zero_testBit]
    cases ha : a.testBit i <;> cases hb : b.testBit i <;> simp
    exact hn ⟨i, ha, hb⟩
  · rintro ⟨i, h1, h2⟩ h
    have := Nat.testBit_and a b i
    rw [h, h1, h2, Nat.zero_testBit] at this
    cases this

/-- **The new address of mremap is shown exactly if it is used.** -/
theorem new_address (c : Call) :
    (UsesNew (c.arg 3) → (run .mremap c).drop 4 = [.val .newAddr (c.arg 4)])
    ∧ (¬ UsesNew (c.arg 3) → (run .mremap c).drop 4 = []) := by
  have h6 : (c.arg 3 &&& (2 ||| 4) ≠ 0) ↔ ((c.arg 3).testBit 1 = true ∨ (c.arg 3).testBit 2 = true) := by
    rw [and_ne_zero_iff]
    constructor
    · rintro ⟨i, h1, h2⟩
      match i with
      | 0 => exact absurd h2 (by decide)
      | 1 => exact Or.inl h1
      | 2 => exact Or.inr h1
      | i + 3 =>
        have : (2 ||| 4 : Nat) < 2 ^ (i + 3) :=
          Nat.lt_of_lt_of_le (show (2 ||| 4 : Nat) < 2 ^ 3 by decide) (Nat.pow_le_pow_right (by decide) (by omega))
        rw [Nat.testBit_lt_two_pow this] at h2
        cases h2
    · rintro (h | h)
      · exact ⟨1, h, by decide⟩
      · exact ⟨2, h, by decide⟩
  have h1 : (c.arg 3 &&& 1 ≠ 0) ↔ (c.arg 3).testBit 0 = true := by
    rw [and_ne_zero_iff]
    constructor
    · rintro ⟨i, h1, h2⟩
      cases i with
      | zero => exact h1
      | succ i =>
        have : (1 : Nat) < 2 ^ (i + 1) :=
          Nat.lt_of_lt_of_le (show (1 : Nat) < 2 ^ 1 by decide) (Nat.pow_le_pow_right (by decide) (by omega))
        rw [Nat.testBit_lt_two_pow this] at h2
        cases h2
    · intro h
      exact ⟨0, h, by decide⟩
  have hiff : (c.arg 3 &&& (2 ||| 4) ≠ 0 ∧ c.arg 3 &&& 1 ≠ 0) ↔ UsesNew (c.arg 3) := by
    rw [h6, h1, UsesNew]
    exact And.comm
  constructor
  · intro h
    rw [run, if_pos (hiff.mpr h)]
    rfl
  · intro h
    rw [run, if_neg (fun h' => h (hiff.mp h'))]
    rfl

/-! ## mincore -/

theorem pages_eq {c : Call} {lim : Option Nat} {a : Nat} (hf : c.failed = false) : ∀ {k i : Nat}, 0 < i →
    (∀ j, j < k → (c.mem (a + (i + j))).isSome) → (∀ l, lim = some l → i + k ≤ l) →
    pages c lim a i k = (List.range k).map (fun j => Tok.bit ((c.mem (a + (i + j))).getD 0 % 2)) ++ [.end_]
  | 0, i, _, _, _ => rfl
  | k + 1, i, hi, hm, hl => by
    obtain ⟨b, hb⟩ := Option.isSome_iff_exists.mp (hm 0 (by omega))
    rw [Nat.add_zero] at hb
    have hlim : lim.any (fun l => decide (l ≤ i)) = false := by
      cases hc : lim with
      | none => rfl
      | some l => have := hl l hc; simp; omega
    have ih := pages_eq (c := c) (lim := lim) (a := a) hf (k := k) (i := i + 1) (by omega)
      (fun j hj => by rw [show i + 1 + j = i + (j + 1) by omega]; exact hm (j + 1) (by omega))
      (fun l h => by have := hl l h; omega)
    have e : ∀ j, a + (i + 1 + j) = a + (i + (j + 1)) := by intro j; omega
    rw [pages]
    simp only [hf, Bool.false_eq_true, if_false, hb, show ¬ i = 0 by omega, hlim, List.nil_append, ih, e]
    simp [List.range_succ_eq_map, List.map_map, hb]

theorem truncation_none {c : Call} {n : Nat} (h : ∀ l, c.limit = some l → n ≤ l) : truncation c n = none := by
  unfold truncation
  cases hc : c.limit with
  | none => rfl
  | some l =>
    have := h l hc
    have h2 := Nat.mod_le n (2 ^ 32)
    simp only [Option.filter_some]
    rw [if_neg]
    simp only [decide_eq_true_eq]
    omega

theorem truncation_le {c : Call} {n l : Nat} (h : truncation c n = some l) : c.limit = some l := by
  unfold truncation at h
  exact (Option.filter_eq_some_iff.mp h).1

/-- The vector is shown with as many entries as there are pages. -/
theorem mincore_count {c : Call} {k n : Nat} (hpage : c.page = 2 ^ k) (hn : IsPages (c.arg 1) c.page n) :
    (run .mincore c).drop 2 = vector c (c.arg 2) n := by
  have hpp : 0 < c.page := by rw [hpage]; exact Nat.pow_pos (by decide)
  have hmask : c.arg 1 &&& (c.page - 1) = c.arg 1 % c.page := by rw [hpage, Nat.and_two_pow_sub_one_eq_mod]
  have hcount : (c.arg 1 / c.page + if c.arg 1 &&& (c.page - 1) ≠ 0 then 1 else 0) = n := by
    rw [hmask]
    have hd := Nat.div_add_mod (c.arg 1) c.page
    have hlt := Nat.mod_lt (c.arg 1) hpp
    obtain ⟨g1, g2⟩ := hn
    generalize c.arg 1 / c.page = q at *
    generalize c.arg 1 % c.page = r at *
    have hq : c.page * q = q * c.page := Nat.mul_comm _ _
    split
    · have : q < n := by
        apply Classical.byContradiction
        intro h
        have := Nat.mul_le_mul_right c.page (show n ≤ q by omega)
        omega
      have : n < q + 2 := by
        apply Classical.byContradiction
        intro h
        have := Nat.mul_le_mul_right c.page (show q + 2 ≤ n by omega)
        rw [Nat.add_mul] at this
        omega
      omega
    · have : q ≤ n := by
        apply Classical.byContradiction
        intro h
        have := Nat.mul_le_mul_right c.page (show n + 1 ≤ q by omega)
        rw [Nat.add_mul] at this
        omega
      have : n < q + 1 := by
        apply Classical.byContradiction
        intro h
        have := Nat.mul_le_mul_right c.page (show q + 1 ≤ n by omega)
        rw [Nat.add_mul] at this
        omega
      omega
  rw [← hcount]
  rfl

/-- Without a limit, all the pages are shown. -/
theorem mincore_all {c : Call} {k n : Nat} (hpage : c.page = 2 ^ k) (hn : IsPages (c.arg 1) c.page n)
    (hf : c.failed = false) (ha : c.arg 2 ≠ 0) (hend : c.arg 2 + n < 2 ^ 64)
    (hm : ∀ j, j < n → (c.mem (c.arg 2 + j)).isSome) (hl : truncation c n = none) :
    (run .mincore c).drop 2 = .begin_ :: (List.range n).map (fun j => Tok.bit ((c.mem (c.arg 2 + j)).getD 0 % 2)) ++ [.end_] := by
  rw [mincore_count hpage hn, vector, if_neg ha]
  cases n with
  | zero => rfl
  | succ n =>
    rw [if_neg (by omega), if_neg (by omega)]
    obtain ⟨b, hb⟩ := Option.isSome_iff_exists.mp (hm 0 (by omega))
    have hb' : c.mem (c.arg 2) = some b := hb
    rw [hl, pages, pages_eq hf (by decide) (fun j hj => by rw [show 0 + 1 + j = j + 1 by omega]; exact hm (j + 1) (by omega))
      (fun l h => by cases h)]
    simp only [hf, Bool.false_eq_true, if_false, Nat.add_zero, hb', if_true, Option.any_none]
    have e : ∀ j, c.arg 2 + (0 + 1 + j) = c.arg 2 + (j + 1) := by intro j; omega
    simp [List.range_succ_eq_map, List.map_map, hb', e]

/-- **The vector of mincore has a number for each page**: if the call has succeeded, it shows for each of the pages that the
length covers whether the page is in memory (the lowest bit of its byte). -/
theorem mincore_pages {c : Call} {k n : Nat} (hpage : c.page = 2 ^ k) (hn : IsPages (c.arg 1) c.page n)
    (hf : c.failed = false) (ha : c.arg 2 ≠ 0) (hend : c.arg 2 + n < 2 ^ 64)
    (hm : ∀ j, j < n → (c.mem (c.arg 2 + j)).isSome) (hl : ∀ l, c.limit = some l → n ≤ l) :
    (run .mincore c).drop 2 = .begin_ :: (List.range n).map (fun j => Tok.bit ((c.mem (c.arg 2 + j)).getD 0 % 2)) ++ [.end_] :=
  mincore_all hpage hn hf ha hend hm (truncation_none hl)

/-- **If mincore has failed, the address of the vector is shown.** -/
theorem mincore_failed {c : Call} {k n : Nat} (hpage : c.page = 2 ^ k) (hn : IsPages (c.arg 1) c.page n)
    (hf : c.failed = true) (ha : c.arg 2 ≠ 0) (h0 : n ≠ 0) : (run .mincore c).drop 2 = [.bad (c.arg 2)] := by
  rw [mincore_count hpage hn, vector, if_neg ha, if_neg h0]
  split
  · rfl
  · cases n with
    | zero => exact absurd rfl h0
    | succ n => simp [pages, hf]

theorem pages_limit {c : Call} {lim : Option Nat} {a k i l : Nat} (hf : c.failed = false) (h0 : 0 < i) (hl : lim = some l)
    (hi : i ≤ l) (hk : l < i + k) (hm : ∀ j, j < k → (c.mem (a + (i + j))).isSome) :
    pages c lim a i k = (List.range (l - i)).map (fun j => Tok.bit ((c.mem (a + (i + j))).getD 0 % 2)) ++ [.more, .end_] := by
  subst hl
  induction k generalizing i with
  | zero => omega
  | succ k ih =>
    obtain ⟨b, hb⟩ := Option.isSome_iff_exists.mp (hm 0 (by omega))
    rw [Nat.add_zero] at hb
    rw [pages]
    by_cases he : l ≤ i
    · have : l - i = 0 := by omega
      simp [hf, hb, show ¬ i = 0 by omega, he, this]
    · have ih := ih (i := i + 1) (by omega) (by omega) (by omega)
        (fun j hj => by rw [show i + 1 + j = i + (j + 1) by omega]; exact hm (j + 1) (by omega))
      have e : ∀ j, a + (i + 1 + j) = a + (i + (j + 1)) := by intro j; omega
      simp only [hf, Bool.false_eq_true, if_false, hb, show ¬ i = 0 by omega, Option.any_some, he, decide_false,
        List.nil_append, ih, e]
      rw [show l - i = (l - (i + 1)) + 1 by omega]
      simp [List.range_succ_eq_map, List.map_map, hb]

/-- **With a limit below the number of pages, so many of them are shown, and dots.** -/
theorem mincore_limit_partial {c : Call} {k n l : Nat} (hpage : c.page = 2 ^ k) (hn : IsPages (c.arg 1) c.page n)
    (hf : c.failed = false) (ha : c.arg 2 ≠ 0) (hend : c.arg 2 + n < 2 ^ 64)
    (hm : ∀ j, j < n → (c.mem (c.arg 2 + j)).isSome) (hl : c.limit = some l) (hln : l < n) (hn32 : n < 2 ^ 32) :
    (run .mincore c).drop 2
      = .begin_ :: (List.range l).map (fun j => Tok.bit ((c.mem (c.arg 2 + j)).getD 0 % 2)) ++ [.more, .end_] := by
  have ht : truncation c n = some l := by
    unfold truncation
    rw [hl, Option.filter_some, Nat.mod_eq_of_lt hn32, if_pos (by simpa using hln)]
  rw [mincore_count hpage hn, vector, if_neg ha, ht]
  cases n with
  | zero => omega
  | succ n =>
    rw [if_neg (by omega), if_neg (by omega)]
    obtain ⟨b, hb⟩ := Option.isSome_iff_exists.mp (hm 0 (by omega))
    have hb' : c.mem (c.arg 2) = some b := hb
    cases l with
    | zero => simp [pages, hf, hb']
    | succ l =>
      rw [pages, pages_limit hf (by decide) rfl (by omega) (by omega)
        (fun j hj => by rw [show 0 + 1 + j = j + 1 by omega]; exact hm (j + 1) (by omega))]
      have e : ∀ j, c.arg 2 + (0 + 1 + j) = c.arg 2 + (j + 1) := by intro j; omega
      simp [hf, hb', List.range_succ_eq_map, List.map_map, e]

/-- The limit is not kept if the number of pages, taken as a 32-bit one, is not above it: all of them are shown. -/
theorem mincore_limit_lost {c : Call} {k n l : Nat} (hpage : c.page = 2 ^ k) (hn : IsPages (c.arg 1) c.page n)
    (hf : c.failed = false) (ha : c.arg 2 ≠ 0) (hend : c.arg 2 + n < 2 ^ 64)
    (hm : ∀ j, j < n → (c.mem (c.arg 2 + j)).isSome) (hl : c.limit = some l) (hln : n % 2 ^ 32 ≤ l) :
    (run .mincore c).drop 2
      = .begin_ :: (List.range n).map (fun j => Tok.bit ((c.mem (c.arg 2 + j)).getD 0 % 2)) ++ [.end_] := by
  apply mincore_all hpage hn hf ha hend hm
  unfold truncation
  rw [hl, Option.filter_some, if_neg (by simpa using hln)]

/-- Such a number of pages: 2^32, with the limit 32. -/
example : IsPages (2 ^ 44) (2 ^ 12) (2 ^ 32) ∧ 2 ^ 32 % 2 ^ 32 ≤ 32 ∧ 32 < 2 ^ 32 := by unfold IsPages; decide

/-- **If a page's byte cannot be read, the ones before it are shown, then dots and its address.** -/
theorem mincore_unreadable {c : Call} {k n r : Nat} (hpage : c.page = 2 ^ k) (hn : IsPages (c.arg 1) c.page n)
    (hf : c.failed = false) (ha : c.arg 2 ≠ 0) (hend : c.arg 2 + n < 2 ^ 64) (h0 : 0 < r) (hr : r < n)
    (hm : ∀ j, j < r → (c.mem (c.arg 2 + j)).isSome) (hbad : c.mem (c.arg 2 + r) = none)
    (hl : ∀ l, c.limit = some l → r ≤ l) :
    (run .mincore c).drop 2 = .begin_ :: (List.range r).map (fun j => Tok.bit ((c.mem (c.arg 2 + j)).getD 0 % 2))
      ++ [.more, .bad (c.arg 2 + r), .end_] := by
  have hany : ∀ i, i < r → (truncation c n).any (fun l => decide (l ≤ i)) = false := by
    intro i hi
    cases hc : truncation c n with
    | none => rfl
    | some l => have := hl l (truncation_le hc); simp; omega
  have key : ∀ k i, 0 < i → i ≤ r → r < i + k → pages c (truncation c n) (c.arg 2) i k
      = (List.range (r - i)).map (fun j => Tok.bit ((c.mem (c.arg 2 + (i + j))).getD 0 % 2))
        ++ [.more, .bad (c.arg 2 + r), .end_] := by
    intro k
    induction k with
    | zero => intro i _ _ _; omega
    | succ k ih =>
      intro i hi hir hrk
      rw [pages]
      by_cases he : i = r
      · subst he
        simp [hf, hbad, show ¬ i = 0 by omega]
      · obtain ⟨b, hb⟩ := Option.isSome_iff_exists.mp (hm i (by omega))
        have hlim := hany i (by omega)
        have e : ∀ j, c.arg 2 + (i + 1 + j) = c.arg 2 + (i + (j + 1)) := by intro j; omega
        simp only [hf, Bool.false_eq_true, if_false, hb, show ¬ i = 0 by omega, hlim, List.nil_append,
          ih (i + 1) (by omega) (by omega) (by omega), e]
        rw [show r - i = (r - (i + 1)) + 1 by omega]
        simp [List.range_succ_eq_map, List.map_map, hb]
  rw [mincore_count hpage hn, vector, if_neg ha, if_neg (by omega), if_neg (by omega)]
  cases n with
  | zero => omega
  | succ n =>
    obtain ⟨b, hb⟩ := Option.isSome_iff_exists.mp (hm 0 h0)
    have hb' : c.mem (c.arg 2) = some b := hb
    have hlim := hany 0 h0
    rw [pages, key n (0 + 1) (by decide) (by omega) (by omega)]
    have e : ∀ j, c.arg 2 + (0 + 1 + j) = c.arg 2 + (j + 1) := by intro j; omega
    simp only [hf, Bool.false_eq_true, if_false, Nat.add_zero, hb', if_true, hlim, e]
    rw [show r = (r - (0 + 1)) + 1 by omega]
    simp [List.range_succ_eq_map, List.map_map, hb']

/-! ## Concrete cases -/

/-- A call with numbers in its registers, and memory that holds its addresses. -/
def aCall : Call := ⟨fun i => 2 ^ 33 + i, fun a => some (a % 256), false, 8, 4096, none⟩

example : run .msync aCall = [.val .addr (2 ^ 33), .val .len (2 ^ 33 + 1), .val .flags 2] := by decide
example : run .mmap4koff { aCall with arg := fun i => if i = 4 then 2 ^ 32 - 1 else i }
    = [.val .addr 0, .val .len 1, .val .prot 2, .val .flags 3, .val .fd (-1), .val .offset 20480] := by decide
example : (run .oldMmap { aCall with arg := fun _ => 0, word := 4 })
    = [.val .addr 0x03020100, .val .len 0x07060504, .val .prot 0x0b0a0908, .val .flags 0x0f0e0d0c,
      .val .fd 0x13121110, .val .offset 0x17161514] := by decide +kernel
example : UsesNew 3 ∧ ¬ UsesNew 2 := by unfold UsesNew; decide
example : run .mincore { aCall with arg := fun i => if i = 1 then 8193 else if i = 2 then 5 else 0 }
    = [.val .addr 0, .val .len 8193, .begin_, .bit 1, .bit 0, .bit 1, .end_] := by decide +kernel
example : run .mincore { aCall with arg := fun i => if i = 1 then 8193 else if i = 2 then 5 else 0, limit := some 1 }
    = [.val .addr 0, .val .len 8193, .begin_, .bit 1, .more, .end_] := by decide +kernel
example : run .mincore { aCall with arg := fun i => if i = 1 then 8193 else if i = 2 then 5 else 0, mem := fun a => if a < 7 then some a else none }
    = [.val .addr 0, .val .len 8193, .begin_, .bit 1, .bit 0, .more, .bad 7, .end_] := by decide +kernel
example : IsPages 8193 4096 3 := by unfold IsPages; decide

end Strace.Memc
