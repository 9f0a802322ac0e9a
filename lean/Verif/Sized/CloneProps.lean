import Verif.Sized.Props
/-!
# clone3 and sched_attr: what is shown
-/
namespace Strace.Sized

theorem names_cons_next (l : List Tok) : names (.next :: l) = names l := rfl

/-! ### clone3 -/

/-- the fields of a clone3 structure that are left out: the ones that no flag asks for, IDs to choose that are not given or are
shown as an array, and a control group that is 0 and not asked for, or that the structure is too short for -/
def cloneLeft (b : List Byte) (n : String) : Prop :=
  n = "pidfd" ∧ ¬ flagSet (numAt b 0 8) 12 ∨
  n = "child_tid" ∧ ¬ flagSet (numAt b 0 8) 21 ∧ ¬ flagSet (numAt b 0 8) 24 ∨
  n = "parent_tid" ∧ ¬ flagSet (numAt b 0 8) 20 ∨
  n = "tls" ∧ ¬ flagSet (numAt b 0 8) 19 ∨
  n = "set_tid" ∧ (numAt b 64 8 = 0 ∧ numAt b 72 8 = 0 ∨ numAt b 64 8 ≠ 0 ∧ 1 ≤ numAt b 72 8 ∧ numAt b 72 8 ≤ 32) ∨
  n = "set_tid_size" ∧ numAt b 64 8 = 0 ∧ numAt b 72 8 = 0 ∨
  n = "cgroup" ∧ (b.length ≤ 80 ∨ numAt b 80 8 = 0 ∧ ¬ flagSet (numAt b 0 8) 33)

/-- the arrays shown: the IDs, if there are 1 to 32 -/
def cloneArrays (arr : Nat → Nat → String) (b : List Byte) (l : List (String × String)) : Prop :=
  (numAt b 64 8 ≠ 0 ∧ 1 ≤ numAt b 72 8 ∧ numAt b 72 8 ≤ 32 ∧ l = [("set_tid", arr (numAt b 64 8) (numAt b 72 8))]) ∨
  (¬ (numAt b 64 8 ≠ 0 ∧ 1 ≤ numAt b 72 8 ∧ numAt b 72 8 ≤ 32) ∧ l = [])

theorem arrays_append (l r : List Tok) : arrays (l ++ r) = arrays l ++ arrays r := by
  induction l with
  | nil => rfl
  | cons t l ih => cases t <;> simp only [List.cons_append, arrays, ih]

theorem arrays_opt (c : Bool) (l : List Tok) : arrays (opt c l) = if c = true then arrays l else [] := by
  unfold opt; split <;> rfl

theorem derefs_append (l r : List Tok) : derefs (l ++ r) = derefs l ++ derefs r := by
  induction l with
  | nil => rfl
  | cons t l ih => cases t <;> simp only [List.cons_append, derefs, ih]

theorem nz_arrays (mem : Nat → Option Byte) (k : Nat) (a lo t : Nat) : arrays (nonzeroBytes mem k [.next] a lo t).1 = [] := by
  unfold nonzeroBytes
  split
  · rfl
  · split
    · rfl
    · split
      · rfl
      · simp only [List.cons_append, List.nil_append, arrays, arrays_opt]; split <;> rfl

/-- the fields with the conditions taken apart -/
def cloneToks (arr : Nat → Nat → String) (b : List Byte) (c1 c2 c3 c4 c5 c6 c7 : Bool) : List Tok :=
  [.opened, .field "flags" (numAt b 0 8)] ++
  opt c1 [.next, .field "pidfd" (numAt b 8 8)] ++
  opt c2 [.next, .field "child_tid" (numAt b 16 8)] ++
  opt c3 [.next, .field "parent_tid" (numAt b 24 8)] ++
  [.next, .field "exit_signal" (numAt b 32 8), .next, .field "stack" (numAt b 40 8), .next,
    .field "stack_size" (numAt b 48 8)] ++
  opt c4 [.next, .field "tls" (numAt b 56 8)] ++
  opt c5 ((if c6 = true then [.next, .field "set_tid" (numAt b 64 8)]
      else [.next, .array "set_tid" (arr (numAt b 64 8) (numAt b 72 8))]) ++
     [.next, .field "set_tid_size" (numAt b 72 8)]) ++
  opt c7 [.next, .field "cgroup" (numAt b 80 8)]

theorem cloneToks_form (arr : Nat → Nat → String) (b : List Byte) (c1 c2 c3 c4 c5 c6 c7 : Bool) :
    (cloneToks arr b c1 c2 c3 c4 c5 c6 c7).foldl step .start = .have := by
  cases c1 <;> cases c2 <;> cases c3 <;> cases c4 <;> cases c5 <;> cases c6 <;> cases c7 <;> rfl

theorem cloneToks_marks (arr : Nat → Nat → String) (b : List Byte) (c1 c2 c3 c4 c5 c6 c7 : Bool) :
    marks (cloneToks arr b c1 c2 c3 c4 c5 c6 c7) = [] := by
  cases c1 <;> cases c2 <;> cases c3 <;> cases c4 <;> cases c5 <;> cases c6 <;> cases c7 <;> rfl

theorem cloneToks_names (arr : Nat → Nat → String) (b : List Byte) (c1 c2 c3 c4 c5 c6 c7 : Bool) :
    ∀ n ∈ names (cloneToks arr b c1 c2 c3 c4 c5 c6 c7), n ∈ cloneLayout.map (·.1) := by
  cases c1 <;> cases c2 <;> cases c3 <;> cases c4 <;> cases c5 <;> cases c6 <;> cases c7 <;>
    simp only [cloneToks, opt, names, List.cons_append, List.nil_append, List.append_nil, if_true, Bool.false_eq_true,
      if_false] <;> decide

theorem cloneToks_arrays (arr : Nat → Nat → String) (b : List Byte) (c1 c2 c3 c4 c5 c6 c7 : Bool) :
    arrays (cloneToks arr b c1 c2 c3 c4 c5 c6 c7) =
      if c5 = true ∧ c6 = false then [("set_tid", arr (numAt b 64 8) (numAt b 72 8))] else [] := by
  cases c1 <;> cases c2 <;> cases c3 <;> cases c4 <;> cases c5 <;> cases c6 <;> cases c7 <;> rfl

theorem cloneToks_flags (arr : Nat → Nat → String) (b : List Byte) (c1 c2 c3 c4 c5 c6 c7 : Bool) :
    shownAs "flags" (cloneToks arr b c1 c2 c3 c4 c5 c6 c7) = [numAt b 0 8] := by
  cases c5 <;> cases c6 <;> simp [cloneToks, shownAs_append, shownAs_opt, shownAs]

theorem cloneToks_pidfd (arr : Nat → Nat → String) (b : List Byte) (c1 c2 c3 c4 c5 c6 c7 : Bool) :
    shownAs "pidfd" (cloneToks arr b c1 c2 c3 c4 c5 c6 c7) = if c1 = true then [numAt b 8 8] else [] := by
  cases c5 <;> cases c6 <;> simp [cloneToks, shownAs_append, shownAs_opt, shownAs]

theorem cloneToks_child_tid (arr : Nat → Nat → String) (b : List Byte) (c1 c2 c3 c4 c5 c6 c7 : Bool) :
    shownAs "child_tid" (cloneToks arr b c1 c2 c3 c4 c5 c6 c7) = if c2 = true then [numAt b 16 8] else [] := by
  cases c5 <;> cases c6 <;> simp [cloneToks, shownAs_append, shownAs_opt, shownAs]

theorem cloneToks_parent_tid (arr : Nat → Nat → String) (b : List Byte) (c1 c2 c3 c4 c5 c6 c7 : Bool) :
    shownAs "parent_tid" (cloneToks arr b c1 c2 c3 c4 c5 c6 c7) = if c3 = true then [numAt b 24 8] else [] := by
  cases c5 <;> cases c6 <;> simp [cloneToks, shownAs_append, shownAs_opt, shownAs]

theorem cloneToks_exit_signal (arr : Nat → Nat → String) (b : List Byte) (c1 c2 c3 c4 c5 c6 c7 : Bool) :
    shownAs "exit_signal" (cloneToks arr b c1 c2 c3 c4 c5 c6 c7) = [numAt b 32 8] := by
  cases c5 <;> cases c6 <;> simp [cloneToks, shownAs_append, shownAs_opt, shownAs]

theorem cloneToks_stack (arr : Nat → Nat → String) (b : List Byte) (c1 c2 c3 c4 c5 c6 c7 : Bool) :
    shownAs "stack" (cloneToks arr b c1 c2 c3 c4 c5 c6 c7) = [numAt b 40 8] := by
  cases c5 <;> cases c6 <;> simp [cloneToks, shownAs_append, shownAs_opt, shownAs]

theorem cloneToks_stack_size (arr : Nat → Nat → String) (b : List Byte) (c1 c2 c3 c4 c5 c6 c7 : Bool) :
    shownAs "stack_size" (cloneToks arr b c1 c2 c3 c4 c5 c6 c7) = [numAt b 48 8] := by
  cases c5 <;> cases c6 <;> simp [cloneToks, shownAs_append, shownAs_opt, shownAs]

theorem cloneToks_tls (arr : Nat → Nat → String) (b : List Byte) (c1 c2 c3 c4 c5 c6 c7 : Bool) :
    shownAs "tls" (cloneToks arr b c1 c2 c3 c4 c5 c6 c7) = if c4 = true then [numAt b 56 8] else [] := by
  cases c5 <;> cases c6 <;> simp [cloneToks, shownAs_append, shownAs_opt, shownAs]

theorem cloneToks_set_tid (arr : Nat → Nat → String) (b : List Byte) (c1 c2 c3 c4 c5 c6 c7 : Bool) :
    shownAs "set_tid" (cloneToks arr b c1 c2 c3 c4 c5 c6 c7) = if c5 = true ∧ c6 = true then [numAt b 64 8] else [] := by
  cases c5 <;> cases c6 <;> simp [cloneToks, shownAs_append, shownAs_opt, shownAs]

theorem cloneToks_set_tid_size (arr : Nat → Nat → String) (b : List Byte) (c1 c2 c3 c4 c5 c6 c7 : Bool) :
    shownAs "set_tid_size" (cloneToks arr b c1 c2 c3 c4 c5 c6 c7) = if c5 = true then [numAt b 72 8] else [] := by
  cases c5 <;> cases c6 <;> simp [cloneToks, shownAs_append, shownAs_opt, shownAs]

theorem cloneToks_cgroup (arr : Nat → Nat → String) (b : List Byte) (c1 c2 c3 c4 c5 c6 c7 : Bool) :
    shownAs "cgroup" (cloneToks arr b c1 c2 c3 c4 c5 c6 c7) = if c7 = true then [numAt b 80 8] else [] := by
  cases c5 <;> cases c6 <;> simp [cloneToks, shownAs_append, shownAs_opt, shownAs]

theorem clone_conds (b : List Byte) (n : Nat) : ∃ c1 c2 c3 c4 c5 c6 c7 : Bool,
    (∀ arr, cloneFields arr b n = cloneToks arr b c1 c2 c3 c4 c5 c6 c7) ∧
    (c1 = true ↔ flagSet (numAt b 0 8) 12) ∧
    (c2 = true ↔ flagSet (numAt b 0 8) 21 ∨ flagSet (numAt b 0 8) 24) ∧
    (c3 = true ↔ flagSet (numAt b 0 8) 20) ∧
    (c4 = true ↔ flagSet (numAt b 0 8) 19) ∧
    (c5 = true ↔ numAt b 64 8 ≠ 0 ∨ numAt b 72 8 ≠ 0) ∧
    (c6 = true ↔ numAt b 64 8 = 0 ∨ numAt b 72 8 = 0 ∨ numAt b 72 8 > 32) ∧
    (c7 = true ↔ 80 < n ∧ (numAt b 80 8 ≠ 0 ∨ flagSet (numAt b 0 8) 33)) := by
  refine ⟨decide (numAt b 0 8 &&& 0x1000 ≠ 0), decide (numAt b 0 8 &&& 0x1200000 ≠ 0),
    decide (numAt b 0 8 &&& 0x100000 ≠ 0), decide (numAt b 0 8 &&& 0x80000 ≠ 0),
    decide (numAt b 64 8 ≠ 0 ∨ numAt b 72 8 ≠ 0),
    decide (numAt b 64 8 = 0 ∨ numAt b 72 8 = 0 ∨ numAt b 72 8 > 32),
    decide (n > 80) && decide (numAt b 80 8 ≠ 0 ∨ numAt b 0 8 &&& 0x200000000 ≠ 0), ?_, ?_⟩
  · intro arr
    unfold cloneFields cloneTids cloneToks
    simp only [fld_numAt, decide_eq_true_iff]
  · refine ⟨?_, ?_, ?_, ?_, ?_, ?_, ?_⟩
    · rw [decide_eq_true_iff]; exact and_bit _ 12
    · rw [decide_eq_true_iff]
      have e : (0x1200000 : Nat) = 2 ^ 21 ||| 2 ^ 24 := by decide
      rw [e, and_or, and_bit, and_bit]
    · rw [decide_eq_true_iff]; exact and_bit _ 20
    · rw [decide_eq_true_iff]; exact and_bit _ 19
    · rw [decide_eq_true_iff]
    · rw [decide_eq_true_iff]
    · rw [Bool.and_eq_true, decide_eq_true_iff, decide_eq_true_iff]
      have e : (0x200000000 : Nat) = 2 ^ 33 := by decide
      rw [e, and_bit]

theorem clone_defer (f ns : Nat) :
    (f &&& (0x1000 ||| 0x100000 ||| ns) ≠ 0) ↔ flagSet f 12 ∨ flagSet f 20 ∨ f &&& ns ≠ 0 := by
  rw [and_or, and_or]
  have e1 : (0x1000 : Nat) = 2 ^ 12 := by decide
  have e2 : (0x100000 : Nat) = 2 ^ 20 := by decide
  rw [e1, e2, and_bit, and_bit]
  tauto

theorem cloneToks_shows (arr : Nat → Nat → String) (b : List Byte) (n : Nat) (c1 c2 c3 c4 c5 c6 c7 : Bool)
    (hn : n = min b.length 88)
    (h1 : c1 = true ↔ flagSet (numAt b 0 8) 12)
    (h2 : c2 = true ↔ flagSet (numAt b 0 8) 21 ∨ flagSet (numAt b 0 8) 24)
    (h3 : c3 = true ↔ flagSet (numAt b 0 8) 20)
    (h4 : c4 = true ↔ flagSet (numAt b 0 8) 19)
    (h5 : c5 = true ↔ numAt b 64 8 ≠ 0 ∨ numAt b 72 8 ≠ 0)
    (h6 : c6 = true ↔ numAt b 64 8 = 0 ∨ numAt b 72 8 = 0 ∨ numAt b 72 8 > 32)
    (h7 : c7 = true ↔ 80 < n ∧ (numAt b 80 8 ≠ 0 ∨ flagSet (numAt b 0 8) 33)) :
    (∀ e ∈ cloneLayout, cloneLeft b e.1 → shownAs e.1 (cloneToks arr b c1 c2 c3 c4 c5 c6 c7) = []) ∧
    (∀ e ∈ cloneLayout, ¬ cloneLeft b e.1 →
      shownAs e.1 (cloneToks arr b c1 c2 c3 c4 c5 c6 c7) = [numAt b e.2.1 e.2.2]) := by
  refine ⟨?_, ?_⟩
  · intro e hm hleft
    rcases hleft with ⟨hn, g⟩ | ⟨hn, g, g'⟩ | ⟨hn, g⟩ | ⟨hn, g⟩ | ⟨hn, g⟩ | ⟨hn, g, g'⟩ | ⟨hn, g⟩ <;> rw [hn]
    · rw [cloneToks_pidfd, if_neg (by rw [h1]; exact g)]
    · rw [cloneToks_child_tid, if_neg (by rw [h2]; rintro (x | x); exacts [g x, g' x])]
    · rw [cloneToks_parent_tid, if_neg (by rw [h3]; exact g)]
    · rw [cloneToks_tls, if_neg (by rw [h4]; exact g)]
    · rw [cloneToks_set_tid, if_neg (by rw [h5, h6]; omega)]
    · rw [cloneToks_set_tid_size, if_neg (by rw [h5]; omega)]
    · rw [cloneToks_cgroup, if_neg]
      rw [h7]
      rcases g with g | g
      · omega
      · rintro ⟨_, g1 | g1⟩
        · exact g1 g.1
        · exact g.2 g1
  · intro e hm hleft
    simp only [cloneLayout, List.mem_cons, List.not_mem_nil, or_false] at hm
    rcases hm with rfl | rfl | rfl | rfl | rfl | rfl | rfl | rfl | rfl | rfl | rfl
    · exact cloneToks_flags ..
    · simp [cloneLeft] at hleft
      rw [cloneToks_pidfd, if_pos (h1.mpr hleft)]
    · simp [cloneLeft] at hleft
      rw [cloneToks_child_tid, if_pos (h2.mpr (or_iff_not_imp_left.mpr hleft))]
    · simp [cloneLeft] at hleft
      rw [cloneToks_parent_tid, if_pos (h3.mpr hleft)]
    · exact cloneToks_exit_signal ..
    · exact cloneToks_stack ..
    · exact cloneToks_stack_size ..
    · simp [cloneLeft] at hleft
      rw [cloneToks_tls, if_pos (h4.mpr hleft)]
    · simp [cloneLeft] at hleft
      rw [cloneToks_set_tid, if_pos ⟨h5.mpr (by omega), h6.mpr (by omega)⟩]
    · simp [cloneLeft] at hleft
      rw [cloneToks_set_tid_size, if_pos (h5.mpr (by omega))]
    · simp [cloneLeft] at hleft
      rw [cloneToks_cgroup, if_pos (h7.mpr ⟨by omega, or_iff_not_imp_left.mpr fun x => hleft.2 (Classical.not_not.mp x)⟩)]

/-- On entering, clone3 shows the structure, and then its size unless there is more to show on exiting. -/
theorem clone3_shown (mem : Nat → Option Byte) (arr : Nat → Nat → String) (page maxStr ns a : Nat) (b : List Byte)
    (h : Passed mem a b) (h0 : a ≠ 0) (ha : a < 2 ^ 64) (hl : 64 ≤ b.length) :
    ∃ body rest, (clone3Enter mem true arr page maxStr ns a b.length).1 = body ++ rest ∧
      Structure body ∧ Shows body cloneLayout (cloneLeft b) b ∧ cloneArrays arr b (arrays body) ∧
      tailMarks b 88 page maxStr (marks body) ∧
      (((clone3Enter mem true arr page maxStr ns a b.length).2 = true ∧ rest = []) ∨
       ((clone3Enter mem true arr page maxStr ns a b.length).2 = false ∧ rest = [.next, .field "size" b.length])) ∧
      ((clone3Enter mem true arr page maxStr ns a b.length).2 = true ↔
        flagSet (numAt b 0 8) 12 ∨ flagSet (numAt b 0 8) 20 ∨ numAt b 0 8 &&& ns ≠ 0 ∨ b.length > 88) := by
  have hf := fetch_passed mem b (min b.length 88) a h h0 ha (by omega)
  obtain ⟨c1, c2, c3, c4, c5, c6, c7, he, h1, h2, h3, h4, h5, h6, h7⟩ := clone_conds b (min b.length 88)
  have hfld : ∀ off len, off + len ≤ 88 → fld (b.take (min b.length 88)) off len = numAt b off len := by
    intro off len hh
    rw [fld_numAt, Nat.min_comm, numAt_take_min _ _ _ _ hh]
  have hcf : cloneFields arr (b.take (min b.length 88)) (min b.length 88) = cloneFields arr b (min b.length 88) := by
    unfold cloneFields cloneTids
    rw [hfld 0 8 (by omega), hfld 8 8 (by omega), hfld 16 8 (by omega), hfld 24 8 (by omega), hfld 32 8 (by omega),
      hfld 40 8 (by omega), hfld 48 8 (by omega), hfld 56 8 (by omega), hfld 64 8 (by omega), hfld 72 8 (by omega),
      hfld 80 8 (by omega), fld_numAt, fld_numAt, fld_numAt, fld_numAt, fld_numAt, fld_numAt, fld_numAt, fld_numAt,
      fld_numAt, fld_numAt, fld_numAt]
  have hgt : b.length > min b.length 88 ↔ b.length > 88 := by omega
  have eT : opt (decide (b.length > min b.length 88))
      (nonzeroBytes mem maxStr [.next] a (min b.length 88) (min b.length page)).1 =
      opt (decide (b.length > 88)) (nonzeroBytes mem maxStr [.next] a 88 (min b.length page)).1 := by
    by_cases hg : b.length > 88
    · rw [decide_eq_true hg, decide_eq_true (hgt.mpr hg), Nat.min_eq_right (by omega)]
    · rw [decide_eq_false hg, decide_eq_false (fun hh => hg (hgt.mp hh))]; rfl
  have hd := clone_defer (numAt b 0 8) ns
  have hsh : ∀ n, shownAs n (cloneToks arr b c1 c2 c3 c4 c5 c6 c7 ++ opt (decide (b.length > 88))
      (nonzeroBytes mem maxStr [.next] a 88 (min b.length page)).1 ++ [.closed]) =
      shownAs n (cloneToks arr b c1 c2 c3 c4 c5 c6 c7) := by
    intro n
    rw [shownAs_append, shownAs_append, shownAs_opt, nz_shownAs, ite_self]
    simp [shownAs]
  refine ⟨cloneToks arr b c1 c2 c3 c4 c5 c6 c7 ++ opt (decide (b.length > 88))
      (nonzeroBytes mem maxStr [.next] a 88 (min b.length page)).1 ++ [.closed],
    if numAt b 0 8 &&& (0x1000 ||| 0x100000 ||| ns) ≠ 0 ∨ b.length > 88 then [] else [.next, .field "size" b.length],
    ?_, ?_, ⟨?_, ?_, ?_⟩, ?_, ?_, ?_, ?_⟩
  · unfold clone3Enter
    rw [if_neg (by omega), hf]
    simp only [hcf, he, eT]
    simp only [hgt, hfld 0 8 (by omega)]
    split <;> simp
  · simp only [Structure, List.foldl_append]
    rw [cloneToks_form, foldl_opt _ _ (nz_form ..)]
    rfl
  · intro e hm hleft
    rw [hsh]
    exact (cloneToks_shows arr b (min b.length 88) c1 c2 c3 c4 c5 c6 c7 rfl h1 h2 h3 h4 h5 h6 h7).1 e hm hleft
  · intro e hm hleft
    rw [hsh]
    exact (cloneToks_shows arr b (min b.length 88) c1 c2 c3 c4 c5 c6 c7 rfl h1 h2 h3 h4 h5 h6 h7).2 e hm hleft
  · intro n hn
    rw [names_append, names_append, names_opt, nz_names] at hn
    simp only [ite_self, List.append_nil, names] at hn
    exact cloneToks_names arr b c1 c2 c3 c4 c5 c6 c7 n hn
  · rw [arrays_append, arrays_append, arrays_opt, nz_arrays, cloneToks_arrays]
    simp only [ite_self, List.append_nil, arrays]
    unfold cloneArrays
    by_cases hc : numAt b 64 8 ≠ 0 ∧ 1 ≤ numAt b 72 8 ∧ numAt b 72 8 ≤ 32
    · left
      have g5 : c5 = true := h5.mpr (by omega)
      have g6 : c6 = false := by rw [← Bool.not_eq_true, h6]; omega
      exact ⟨hc.1, hc.2.1, hc.2.2, by simp [g5, g6]⟩
    · right
      refine ⟨hc, ?_⟩
      by_cases g5 : c5 = true
      · have := h5.mp g5
        have g6 : c6 = true := h6.mpr (by omega)
        simp [g6]
      · simp [g5]
  · rw [marks_append, marks_append, marks_opt, cloneToks_marks]
    simp only [marks, List.append_nil, List.nil_append]
    by_cases hg : b.length > 88
    · simp only [decide_eq_true hg, if_true]
      exact nz_marks mem maxStr page a b 88 h
    · simp only [decide_eq_false hg]
      exact tailMarks_small b 88 page maxStr (by omega)
  · unfold clone3Enter
    rw [if_neg (by omega), hf]
    simp only [hgt, hfld 0 8 (by omega)]
    split
    · left; exact ⟨rfl, rfl⟩
    · right; exact ⟨rfl, rfl⟩
  · unfold clone3Enter
    rw [if_neg (by omega), hf]
    simp only []
    split
    · rename_i hh
      rw [hfld 0 8 (by omega), hgt, hd] at hh
      refine iff_of_true rfl ?_
      rcases hh with (hh | hh | hh) | hh
      · exact Or.inl hh
      · exact Or.inr (Or.inl hh)
      · exact Or.inr (Or.inr (Or.inl hh))
      · exact Or.inr (Or.inr (Or.inr hh))
    · rename_i hh
      rw [hfld 0 8 (by omega), hgt, hd] at hh
      refine iff_of_false Bool.false_ne_true fun h => hh ?_
      rcases h with h | h | h | h
      · exact Or.inl (Or.inl h)
      · exact Or.inl (Or.inr (Or.inl h))
      · exact Or.inl (Or.inr (Or.inr h))
      · exact Or.inr h

/-- the bytes beyond the structure after a prefix of another kind -/
theorem nz_pre (mem : Nat → Option Byte) (k : Nat) (pre : List Tok) (a lo t : Nat) :
    (nonzeroBytes mem k pre a lo t = ([], false) ∧ nonzeroBytes mem k [.next] a lo t = ([], false)) ∨
    ∃ r, nonzeroBytes mem k pre a lo t = (pre ++ r, true) ∧ nonzeroBytes mem k [.next] a lo t = (.next :: r, true) ∧
      r.foldl step .want = .have ∧ (∀ n, shownAs n r = []) ∧ derefs r = [] := by
  unfold nonzeroBytes
  split
  · left; exact ⟨rfl, rfl⟩
  · split
    · right; exact ⟨[.unavailable], rfl, rfl, rfl, fun _ => rfl, rfl⟩
    · split
      · left; exact ⟨rfl, rfl⟩
      · right
        refine ⟨_, rfl, rfl, ?_, ?_, ?_⟩
        · exact foldl_opt _ _ rfl
        · intro n; simp only [shownAs, shownAs_opt]; split <;> rfl
        · unfold opt; split <;> rfl

/-- what is shown of the structure on exiting, taken apart -/
theorem exit_cases (mem : Nat → Option Byte) (vb : Bool) (page maxStr a size : Nat) (b : List Byte)
    (hm : moven mem a (min size 88) = some b) : ∃ (c1 c2 : Bool) (t : List Tok),
    (c1 = true ↔ flagSet (numAt b 0 8) 12) ∧ (c2 = true ↔ flagSet (numAt b 0 8) 20) ∧
    (t = [] ∨ ∃ r, t = .next :: r ∧ r.foldl step .want = .have ∧ (∀ n, shownAs n r = []) ∧ derefs r = []) ∧
    t = opt (decide (size > min size 88)) (nonzeroBytes mem maxStr [.next] a (min size 88) (min size page)).1 ∧
    clone3Exit mem vb false page maxStr a size =
      (match (opt c1 [Tok.next, .deref "pidfd" (fld b 8 8) (num32 mem vb (fld b 8 8))] ++
          opt c2 [Tok.next, .deref "parent_tid" (fld b 24 8) (num32 mem vb (fld b 24 8))] ++ t) with
        | [] => []
        | _ :: l => [.changed, .opened] ++ l ++ [.closed]) ++ [.next, .field "size" size] := by
  have e1 : (fld b 0 8 &&& 0x1000 ≠ 0) ↔ flagSet (numAt b 0 8) 12 := by rw [fld_numAt]; exact and_bit _ 12
  have e2 : (fld b 0 8 &&& 0x100000 ≠ 0) ↔ flagSet (numAt b 0 8) 20 := by rw [fld_numAt]; exact and_bit _ 20
  obtain ⟨c1, hc1⟩ : ∃ c : Bool, c = true ↔ flagSet (numAt b 0 8) 12 := by
    by_cases h : flagSet (numAt b 0 8) 12
    · exact ⟨true, by simp [h]⟩
    · exact ⟨false, by simp [h]⟩
  obtain ⟨c2, hc2⟩ : ∃ c : Bool, c = true ↔ flagSet (numAt b 0 8) 20 := by
    by_cases h : flagSet (numAt b 0 8) 20
    · exact ⟨true, by simp [h]⟩
    · exact ⟨false, by simp [h]⟩
  refine ⟨c1, c2, _, hc1, hc2, ?_, rfl, ?_⟩
  · unfold opt
    split
    · rcases nz_pre mem maxStr [] a (min size 88) (min size page) with ⟨_, h⟩ | ⟨r, _, h, h'⟩
      · left; rw [h]
      · right; rw [h]; exact ⟨r, rfl, h'⟩
    · left; rfl
  · unfold clone3Exit
    rw [hm]
    simp only [e1, e2, ← hc1, ← hc2]
    by_cases hg : size > min size 88
    · simp only [if_pos hg, decide_eq_true hg, opt, if_true, Bool.false_eq_true, if_false]
      cases c1 <;> cases c2
      · rcases nz_pre mem maxStr [.changed, .opened] a (min size 88) (min size page) with ⟨h, h'⟩ | ⟨r, h, h', _⟩
        · simp [h, h']
        · simp [h, h']
      all_goals
        rcases nz_pre mem maxStr [.next] a (min size 88) (min size page) with ⟨h, h'⟩ | ⟨r, h, h', _⟩
        · simp [h']
        · simp [h']
    · simp only [if_neg hg, decide_eq_false hg, opt, if_true, Bool.false_eq_true, if_false]
      cases c1 <;> cases c2 <;> simp

theorem exit_text (mem : Nat → Option Byte) (vb err : Bool) (page maxStr a size : Nat) :
    (clone3Exit mem vb err page maxStr a size).foldl step .done = .doneArg ∧
    shownAs "size" (clone3Exit mem vb err page maxStr a size) = [size] := by
  cases err
  · cases hm : moven mem a (min size 88) with
    | none => simp [clone3Exit, hm, step, shownAs]
    | some b =>
      obtain ⟨c1, c2, t, _, _, ht, _, he⟩ := exit_cases mem vb page maxStr a size b hm
      rw [he]
      rcases ht with rfl | ⟨r, rfl, hr, hn, _⟩
      · cases c1 <;> cases c2 <;> simp [opt, step, shownAs]
      · cases c1 <;> cases c2 <;> simp [opt, step, shownAs, shownAs_append, hn, hr]
  · simp [clone3Exit, step, shownAs]

/-- Whatever the memory holds on entering and on exiting, the two arguments of clone3 are shown as an address or a structure,
possibly followed by what the call changed, and a size, which is shown once. -/
theorem clone3_text (mem mem' : Nat → Option Byte) (vb err : Bool) (arr : Nat → Nat → String) (page maxStr ns a size : Nat) :
    StructureArg ((clone3Enter mem vb arr page maxStr ns a size).1 ++
      if (clone3Enter mem vb arr page maxStr ns a size).2 = true then clone3Exit mem' vb err page maxStr a size else []) ∧
    shownAs "size" ((clone3Enter mem vb arr page maxStr ns a size).1 ++
      if (clone3Enter mem vb arr page maxStr ns a size).2 = true then clone3Exit mem' vb err page maxStr a size else []) =
      [size] := by
  obtain ⟨x1, x2⟩ := exit_text mem' vb err page maxStr a size
  generalize clone3Exit mem' vb err page maxStr a size = ex at x1 x2
  unfold StructureArg clone3Enter
  split
  · simp [step, shownAs]
  · split
    · simp [step, shownAs]
    · rename_i b hb
      obtain ⟨c1, c2, c3, c4, c5, c6, c7, he, _⟩ := clone_conds b (min size 88)
      simp only [he]
      have hs : shownAs "size" (cloneToks arr b c1 c2 c3 c4 c5 c6 c7) = [] := by
        cases c5 <;> cases c6 <;> simp [cloneToks, shownAs_append, shownAs_opt, shownAs]
      have hcl : (cloneToks arr b c1 c2 c3 c4 c5 c6 c7 ++ opt (decide (size > min size 88))
          (nonzeroBytes mem maxStr [.next] a (min size 88) (min size page)).1 ++ [Tok.closed]).foldl step .start = .done := by
        rw [List.foldl_append, List.foldl_append, cloneToks_form, foldl_opt _ _ (nz_form ..)]; rfl
      have hsz : shownAs "size" (cloneToks arr b c1 c2 c3 c4 c5 c6 c7 ++ opt (decide (size > min size 88))
          (nonzeroBytes mem maxStr [.next] a (min size 88) (min size page)).1 ++ [.closed]) = [] := by
        rw [shownAs_append, shownAs_append, shownAs_opt, nz_shownAs, ite_self, hs]; rfl
      generalize cloneToks arr b c1 c2 c3 c4 c5 c6 c7 ++ opt (decide (size > min size 88))
          (nonzeroBytes mem maxStr [.next] a (min size 88) (min size page)).1 ++ [Tok.closed] = body at hcl hsz
      split
      · simp only [if_true]
        rw [List.foldl_append, hcl, shownAs_append, hsz]
        exact ⟨x1, x2⟩
      · simp only [Bool.false_eq_true, if_false, List.append_nil]
        rw [List.foldl_append, hcl, shownAs_append, hsz]
        exact ⟨rfl, rfl⟩

/-- a value shown behind a pointer is the number that lies there -/
def Pointed (mem : Nat → Option Byte) (p : Nat) (v : Option Nat) : Prop :=
  ∀ d : List Byte, d.length = 4 → Passed mem p d → p ≠ 0 → p < 2 ^ 64 → v = some (numAt d 0 4)

/-- On exiting from a call that succeeded, the IDs the kernel stored are shown where the flags ask for them. -/
theorem clone3_exit_shown (mem : Nat → Option Byte) (page maxStr a : Nat) (b : List Byte) (h : Passed mem a b)
    (ha : a < 2 ^ 64) (hl : 64 ≤ b.length) : ∃ v1 v2 d1 d2,
    derefs (clone3Exit mem true false page maxStr a b.length) = d1 ++ d2 ∧
    (flagSet (numAt b 0 8) 12 ∧ d1 = [("pidfd", numAt b 8 8, v1)] ∨ ¬ flagSet (numAt b 0 8) 12 ∧ d1 = []) ∧
    (flagSet (numAt b 0 8) 20 ∧ d2 = [("parent_tid", numAt b 24 8, v2)] ∨ ¬ flagSet (numAt b 0 8) 20 ∧ d2 = []) ∧
    Pointed mem (numAt b 8 8) v1 ∧ Pointed mem (numAt b 24 8) v2 ∧
    tailMarks b 88 page maxStr (marks (clone3Exit mem true false page maxStr a b.length)) := by
  have hm := moven_passed0 mem b (min b.length 88) a h ha (by omega)
  obtain ⟨c1, c2, t, h1, h2, ht, htt, he⟩ := exit_cases mem true page maxStr a b.length _ hm
  have hfld : ∀ off len, off + len ≤ 88 → numAt (b.take (min b.length 88)) off len = numAt b off len := by
    intro off len hh
    rw [Nat.min_comm, numAt_take_min _ _ _ _ hh]
  rw [hfld 0 8 (by omega)] at h1 h2
  rw [fld_numAt, fld_numAt, hfld 8 8 (by omega), hfld 24 8 (by omega)] at he
  have hp : ∀ p, Pointed mem p (num32 mem true p) := by
    intro p d hd hpd h0 hlt
    rw [num32, fetch_passed mem d 4 p hpd h0 hlt (by omega)]
    have := fld_take d 0 4 4 (by omega)
    rw [fld, List.drop_zero, List.take_take, Nat.min_self] at this
    rw [Option.map_some, this]
  have hmt : tailMarks b 88 page maxStr (marks t) := by
    rw [htt, marks_opt]
    by_cases hg : b.length > 88
    · have : b.length > min b.length 88 := by omega
      simp only [decide_eq_true this, if_true]
      rw [Nat.min_eq_right (by omega)]
      exact nz_marks mem maxStr page a b 88 h
    · have : ¬ b.length > min b.length 88 := by omega
      simp only [decide_eq_false this]
      exact tailMarks_small b 88 page maxStr (by omega)
  refine ⟨num32 mem true (numAt b 8 8), num32 mem true (numAt b 24 8),
    if c1 = true then [("pidfd", numAt b 8 8, num32 mem true (numAt b 8 8))] else [],
    if c2 = true then [("parent_tid", numAt b 24 8, num32 mem true (numAt b 24 8))] else [], ?_, ?_, ?_, hp _, hp _, ?_⟩
  · rw [he]
    generalize num32 mem true (numAt b 8 8) = v1
    generalize num32 mem true (numAt b 24 8) = v2
    rcases ht with rfl | ⟨r, rfl, hr, hn, hd⟩
    · cases c1 <;> cases c2 <;> simp [opt, derefs]
    · cases c1 <;> cases c2 <;> simp [opt, derefs, derefs_append, hd]
  · by_cases hf : flagSet (numAt b 0 8) 12
    · left; exact ⟨hf, if_pos (h1.mpr hf)⟩
    · right; exact ⟨hf, if_neg fun x => hf (h1.mp x)⟩
  · by_cases hf : flagSet (numAt b 0 8) 20
    · left; exact ⟨hf, if_pos (h2.mpr hf)⟩
    · right; exact ⟨hf, if_neg fun x => hf (h2.mp x)⟩
  · have : marks (clone3Exit mem true false page maxStr a b.length) = marks t := by
      rw [he]
      clear htt hmt
      generalize num32 mem true (numAt b 8 8) = v1
      generalize num32 mem true (numAt b 24 8) = v2
      rcases ht with rfl | ⟨r, rfl, hr, hn, hd⟩
      · cases c1 <;> cases c2 <;> simp [opt, marks]
      · cases c1 <;> cases c2 <;> simp [opt, marks, marks_append]
    rw [this]
    exact hmt

/-- After a call that failed, nothing of the structure is shown again. -/
theorem clone3_exit_failed (mem : Nat → Option Byte) (vb : Bool) (page maxStr a size : Nat) :
    clone3Exit mem vb true page maxStr a size = [.next, .field "size" size] := by
  simp [clone3Exit]

/-! ### sched_attr -/

/-- the fields of a sched_attr passed to sched_setattr that are left out -/
def schedSetLeft (b : List Byte) (n : String) : Prop :=
  n = "sched_policy" ∧ numAt b 4 4 < 2 ^ 31 ∧ (flagSet (numAt b 8 8) 3 ∨ flagSet (numAt b 8 8) 4) ∨
  (n = "sched_nice" ∨ n = "sched_priority" ∨ n = "sched_runtime" ∨ n = "sched_deadline" ∨ n = "sched_period") ∧
    flagSet (numAt b 8 8) 4 ∨
  (n = "sched_util_min" ∨ n = "sched_util_max") ∧ b.length < 56

/-- ... of one the kernel filled: those beyond the size it stored -/
def schedGetLeft (b : List Byte) (n : String) : Prop :=
  (n = "sched_util_min" ∨ n = "sched_util_max") ∧ numAt b 0 4 < 56

def schedToks (b : List Byte) (c1 c2 c3 c4 : Bool) : List Tok :=
  [.opened, .field "size" (numAt b 0 4)] ++
  (opt c1 [.next, .field "sched_policy" (numAt b 4 4)] ++
    [.next, .field "sched_flags" (numAt b 8 8)] ++
    opt c2 [.next, .field "sched_nice" (numAt b 16 4), .next, .field "sched_priority" (numAt b 20 4), .next,
        .field "sched_runtime" (numAt b 24 8), .next, .field "sched_deadline" (numAt b 32 8), .next,
        .field "sched_period" (numAt b 40 8)] ++
    opt c3 [.next, .field "sched_util_min" (numAt b 48 4), .next, .field "sched_util_max" (numAt b 52 4)]) ++
  opt c4 [.next, .more] ++
  [.closed]

theorem sched_conds (b : List Byte) (isSet : Bool) (size total : Nat) (hs : 48 ≤ size) : ∃ c1 c2 c3 c4 : Bool,
    schedFields b isSet size total = schedToks b c1 c2 c3 c4 ∧
    (c1 = true ↔ isSet = false ∨ numAt b 4 4 ≥ 2 ^ 31 ∨ ¬ (flagSet (numAt b 8 8) 3 ∨ flagSet (numAt b 8 8) 4)) ∧
    (c2 = true ↔ isSet = false ∨ ¬ flagSet (numAt b 8 8) 4) ∧
    (c3 = true ↔ 56 ≤ size) ∧ (c4 = true ↔ total > size) := by
  have e1 : (numAt b 8 8 &&& 0x18 = 0) ↔ ¬ (flagSet (numAt b 8 8) 3 ∨ flagSet (numAt b 8 8) 4) := by
    have e : (0x18 : Nat) = 2 ^ 3 ||| 2 ^ 4 := by decide
    rw [← and_bit, ← and_bit, ← and_or, ← e, Classical.not_not]
  have e2 : (numAt b 8 8 &&& 0x10 = 0) ↔ ¬ flagSet (numAt b 8 8) 4 := by
    have e : (0x10 : Nat) = 2 ^ 4 := by decide
    rw [← and_bit, ← e, Classical.not_not]
  refine ⟨!isSet || decide (numAt b 4 4 ≥ 2 ^ 31) || decide (numAt b 8 8 &&& 0x18 = 0),
    !isSet || decide (numAt b 8 8 &&& 0x10 = 0), decide (56 ≤ size), decide (total > size), ?_, ?_, ?_, ?_, ?_⟩
  · unfold schedFields schedToks
    rw [if_neg (by omega)]
    simp only [fld_numAt]
    congr 4
    by_cases hh : 56 ≤ size
    · rw [if_neg (by omega), decide_eq_true hh]; rfl
    · rw [if_pos (by omega), decide_eq_false hh]; rfl
  · rw [Bool.or_eq_true, Bool.or_eq_true, decide_eq_true_iff, decide_eq_true_iff, e1, Bool.not_eq_true', or_assoc]
  · rw [Bool.or_eq_true, decide_eq_true_iff, e2, Bool.not_eq_true']
  · rw [decide_eq_true_iff]
  · rw [decide_eq_true_iff]

theorem schedToks_facts (b : List Byte) (c1 c2 c3 c4 : Bool) :
    Structure (schedToks b c1 c2 c3 c4) ∧
    marks (schedToks b c1 c2 c3 c4) = (if c4 = true then [.more] else []) ∧
    (∀ n ∈ names (schedToks b c1 c2 c3 c4), n ∈ schedLayout.map (·.1)) ∧
    (∀ e ∈ schedLayout, shownAs e.1 (schedToks b c1 c2 c3 c4) =
      if e.1 = "sched_policy" ∧ c1 = false ∨ (e.1 = "sched_nice" ∨ e.1 = "sched_priority" ∨ e.1 = "sched_runtime" ∨
        e.1 = "sched_deadline" ∨ e.1 = "sched_period") ∧ c2 = false ∨
        (e.1 = "sched_util_min" ∨ e.1 = "sched_util_max") ∧ c3 = false then []
      else [numAt b e.2.1 e.2.2]) := by
  refine ⟨?_, ?_, ?_, ?_⟩
  · cases c1 <;> cases c2 <;> cases c3 <;> cases c4 <;> rfl
  · cases c1 <;> cases c2 <;> cases c3 <;> cases c4 <;> rfl
  · cases c1 <;> cases c2 <;> cases c3 <;> cases c4 <;>
      simp only [schedToks, opt, names, List.cons_append, List.nil_append, List.append_nil, if_true, Bool.false_eq_true,
        if_false] <;> decide
  · intro e he
    simp only [schedLayout, List.mem_cons, List.not_mem_nil, or_false] at he
    rcases he with rfl | rfl | rfl | rfl | rfl | rfl | rfl | rfl | rfl | rfl <;>
      cases c1 <;> cases c2 <;> cases c3 <;> simp [schedToks, shownAs_append, shownAs_opt, shownAs]

/-- the structure passed to sched_setattr: a size of 0 stands for the first version -/
def schedLen (b : List Byte) : Nat := if numAt b 0 4 = 0 then 48 else numAt b 0 4

/-- sched_setattr: the structure has the size it says; a field is left out only if the flags say so or the structure ends
before it, and `...` says that there is more than strace knows. -/
theorem schedSet_shown (mem : Nat → Option Byte) (a : Nat) (b : List Byte) (h : Passed mem a b) (h0 : a ≠ 0)
    (ha : a < 2 ^ 64) (hs : b.length = schedLen b) (hl : 48 ≤ b.length) :
    Structure (schedSet mem true a) ∧ Shows (schedSet mem true a) schedLayout (schedSetLeft b) b ∧
    (b.length ≤ 56 ∧ marks (schedSet mem true a) = [] ∨ b.length > 56 ∧ marks (schedSet mem true a) = [.more]) := by
  have hf := fetch_passed mem b 4 a h h0 ha (by omega)
  have hf2 := fetch_passed mem b (if b.length ≤ 56 then b.length else 56) a h h0 ha (by split <;> omega)
  obtain ⟨n, hn⟩ : ∃ n, n = if b.length ≤ 56 then b.length else 56 := ⟨_, rfl⟩
  have hn48 : 48 ≤ n := by rw [hn]; split <;> omega
  have hnm : n = min 56 b.length := by rw [hn]; split <;> omega
  obtain ⟨c1, c2, c3, c4, he, h1, h2, h3, h4⟩ := sched_conds (b.take n) true n b.length hn48
  have hnum : ∀ off len, off + len ≤ 56 → numAt (b.take n) off len = numAt b off len := by
    intro off len hh; rw [hnm]; exact numAt_take_min _ _ _ _ hh
  have e : schedSet mem true a = schedToks b c1 c2 c3 c4 := by
    unfold schedSet
    rw [hf]
    simp only [fld_take b 0 4 4 (by omega)]
    have hsl : (if numAt b 0 4 = 0 then 48 else numAt b 0 4) = b.length := by rw [hs]; rfl
    rw [hsl, hf2, ← hn, if_pos hn48]
    simp only
    rw [he]
    unfold schedToks
    rw [hnum 0 4 (by omega), hnum 4 4 (by omega), hnum 8 8 (by omega), hnum 16 4 (by omega), hnum 20 4 (by omega),
      hnum 24 8 (by omega), hnum 32 8 (by omega), hnum 40 8 (by omega), hnum 48 4 (by omega), hnum 52 4 (by omega)]
  rw [hnum 4 4 (by omega), hnum 8 8 (by omega)] at h1
  rw [hnum 8 8 (by omega)] at h2
  obtain ⟨f1, f2, f3, f4⟩ := schedToks_facts b c1 c2 c3 c4
  rw [e]
  have g1 : c1 = false ↔ numAt b 4 4 < 2 ^ 31 ∧ (flagSet (numAt b 8 8) 3 ∨ flagSet (numAt b 8 8) 4) := by
    rw [← Bool.not_eq_true, h1, not_or, not_or, Classical.not_not, Nat.not_le]
    exact ⟨fun x => x.2, fun x => ⟨Bool.noConfusion, x⟩⟩
  have g2 : c2 = false ↔ flagSet (numAt b 8 8) 4 := by
    rw [← Bool.not_eq_true, h2, not_or, Classical.not_not]
    exact ⟨fun x => x.2, fun x => ⟨Bool.noConfusion, x⟩⟩
  have g3 : c3 = false ↔ b.length < 56 := by rw [← Bool.not_eq_true, h3]; omega
  have g4 : c4 = true ↔ b.length > 56 := by rw [h4]; omega
  refine ⟨f1, ⟨?_, ?_, f3⟩, ?_⟩
  · intro e hm hleft
    rw [f4 e hm, if_pos]
    rw [g1, g2, g3]; exact hleft
  · intro e hm hleft
    rw [f4 e hm, if_neg]
    rw [g1, g2, g3]; exact hleft
  · by_cases hg : b.length > 56
    · right; exact ⟨hg, by rw [f2, if_pos (g4.mpr hg)]⟩
    · left; exact ⟨by omega, by rw [f2, if_neg fun x => hg (g4.mp x)]⟩

/-- A structure too short for its first version is shown by its size only. -/
theorem schedSet_short (mem : Nat → Option Byte) (a : Nat) (b : List Byte) (h : Passed mem a b) (h0 : a ≠ 0)
    (ha : a < 2 ^ 64) (hl : 4 ≤ b.length) (hs : 0 < numAt b 0 4) (hs' : numAt b 0 4 < 48) :
    schedSet mem true a = [.opened, .field "size" (numAt b 0 4), .closed] := by
  have hf := fetch_passed mem b 4 a h h0 ha hl
  unfold schedSet
  rw [hf]
  simp only [fld_take b 0 4 4 (by omega)]
  rw [if_neg (show ¬ numAt b 0 4 = 0 by omega), if_pos (show numAt b 0 4 ≤ 56 by omega),
    if_neg (show ¬ numAt b 0 4 ≥ 48 by omega)]
  unfold schedFields
  rw [if_pos (by omega), fld_take b 0 4 4 (by omega)]
  simp [opt]

/-- sched_getattr: the kernel stored a structure in a buffer of the size given by the caller.  The full claim, that `...` is
shown if the kernel stored more than strace knows, does not hold: see schedGet_more_hidden. -/
theorem schedGet_shown_partial (mem : Nat → Option Byte) (a : Nat) (b : List Byte) (h : Passed mem a b) (h0 : a ≠ 0)
    (ha : a < 2 ^ 64) (hl : 48 ≤ numAt b 0 4) :
    Structure (schedGet mem true a b.length) ∧ Shows (schedGet mem true a b.length) schedLayout (schedGetLeft b) b ∧
    marks (schedGet mem true a b.length) = [] := by
  have hf2 := fetch_passed mem b (if b.length ≤ 56 then b.length else 56) a h h0 ha (by split <;> omega)
  obtain ⟨n, hn⟩ : ∃ n, n = if b.length ≤ 56 then b.length else 56 := ⟨_, rfl⟩
  have hnm : n = min 56 b.length := by rw [hn]; split <;> omega
  have hnum : ∀ off len, off + len ≤ 56 → numAt (b.take n) off len = numAt b off len := by
    intro off len hh; rw [hnm]; exact numAt_take_min _ _ _ _ hh
  obtain ⟨c1, c2, c3, c4, he, h1, h2, h3, h4⟩ := sched_conds (b.take n) false (numAt b 0 4) (numAt b 0 4) hl
  have e : schedGet mem true a b.length = schedToks b c1 c2 c3 c4 := by
    unfold schedGet
    rw [hf2, ← hn]
    simp only [fld_numAt, hnum 0 4 (by omega)]
    rw [he]
    unfold schedToks
    rw [hnum 0 4 (by omega), hnum 4 4 (by omega), hnum 8 8 (by omega), hnum 16 4 (by omega), hnum 20 4 (by omega),
      hnum 24 8 (by omega), hnum 32 8 (by omega), hnum 40 8 (by omega), hnum 48 4 (by omega), hnum 52 4 (by omega)]
  obtain ⟨f1, f2, f3, f4⟩ := schedToks_facts b c1 c2 c3 c4
  rw [e]
  have g1 : c1 = true := h1.mpr (Or.inl rfl)
  have g2 : c2 = true := h2.mpr (Or.inl rfl)
  have g3 : c3 = false ↔ numAt b 0 4 < 56 := by rw [← Bool.not_eq_true, h3]; omega
  have g4 : ¬ c4 = true := by rw [h4]; omega
  have hif : ∀ n : String, (n = "sched_policy" ∧ c1 = false ∨ (n = "sched_nice" ∨ n = "sched_priority" ∨ n = "sched_runtime" ∨
        n = "sched_deadline" ∨ n = "sched_period") ∧ c2 = false ∨
        (n = "sched_util_min" ∨ n = "sched_util_max") ∧ c3 = false) ↔ schedGetLeft b n := by
    intro n
    rw [g1, g2, g3]
    unfold schedGetLeft
    simp
  refine ⟨f1, ⟨?_, ?_, f3⟩, ?_⟩
  · intro e hm hleft
    rw [f4 e hm, if_pos ((hif e.1).mpr hleft)]
  · intro e hm hleft
    rw [f4 e hm, if_neg fun x => hleft ((hif e.1).mp x)]
  · rw [f2, if_neg g4]

/-- The kernel stored 64 bytes, the last one being 1 or 0: the text is the same and has no `...`. -/
theorem schedGet_more_hidden : ∃ b b' : List Byte, b ≠ b' ∧ b.length = 64 ∧ b'.length = 64 ∧ numAt b 0 4 = 64 ∧
    numAt b' 0 4 = 64 ∧ schedGet (memOf 0x1000 b) true 0x1000 64 = schedGet (memOf 0x1000 b') true 0x1000 64 ∧
    marks (schedGet (memOf 0x1000 b) true 0x1000 64) = [] := by
  refine ⟨64 :: List.replicate 63 0, (64 :: List.replicate 62 0) ++ [1], ?_, ?_, ?_, ?_, ?_, ?_, ?_⟩ <;>
    decide +kernel

/-! ### Structures that cannot be shown -/

/-- A structure shorter than the first published version, or one that cannot be read, is shown as its address. -/
theorem not_shown (mem : Nat → Option Byte) (vb : Bool) (arr : Nat → Nat → String) (page maxStr ns a size : Nat)
    (hn : a = 0 ∨ vb = false ∨ mem a = none) :
    openHow mem vb page maxStr a size = [.addr a] ∧ mountAttr mem vb page maxStr a size = [.addr a] ∧
    xattrArgs mem vb page maxStr a size = [.addr a] ∧ mntIdReq mem vb page maxStr a = [.addr a] ∧
    clone3Enter mem vb arr page maxStr ns a size = ([.addr a, .next, .field "size" size], false) ∧
    schedSet mem vb a = [.addr a] := by
  have hf : ∀ n, 0 < n → fetch mem vb a n = none := by
    intro n hpos
    unfold fetch
    by_cases h : a = 0 ∨ vb = false
    · rw [if_pos h]
    · rw [if_neg h]
      have hm : mem a = none := by
        rcases hn with h1 | h1 | h1
        · exact absurd (Or.inl h1) h
        · exact absurd (Or.inr h1) h
        · exact h1
      cases n with
      | zero => omega
      | succ n => rw [moven, hm]
  refine ⟨?_, ?_, ?_, ?_, ?_, ?_⟩
  · unfold openHow; split
    · rfl
    · rw [hf _ (by omega)]
  · unfold mountAttr; split
    · rfl
    · rw [hf _ (by omega)]
  · unfold xattrArgs; split
    · rfl
    · rw [hf _ (by omega)]
  · unfold mntIdReq; rw [hf 4 (by omega)]
  · unfold clone3Enter; split
    · rfl
    · rw [hf _ (by omega)]
  · unfold schedSet; rw [hf 4 (by omega)]

theorem short_shown (mem : Nat → Option Byte) (vb : Bool) (arr : Nat → Nat → String) (page maxStr ns a size : Nat) :
    (size < 24 → openHow mem vb page maxStr a size = [.addr a]) ∧
    (size < 32 → mountAttr mem vb page maxStr a size = [.addr a]) ∧
    (size < 16 → xattrArgs mem vb page maxStr a size = [.addr a]) ∧
    (size < 64 → clone3Enter mem vb arr page maxStr ns a size = ([.addr a, .next, .field "size" size], false)) := by
  refine ⟨?_, ?_, ?_, ?_⟩ <;> intro h
  · rw [openHow, if_pos h]
  · rw [mountAttr, if_pos h]
  · rw [xattrArgs, if_pos h]
  · rw [clone3Enter, if_pos (by omega)]

/-- a request shorter than the first version shows its size only -/
theorem mntIdReq_short (mem : Nat → Option Byte) (page maxStr a : Nat) (b : List Byte) (h : Passed mem a b) (h0 : a ≠ 0)
    (ha : a < 2 ^ 64) (hl : 4 ≤ b.length) (hs : numAt b 0 4 < 24) :
    mntIdReq mem true page maxStr a = [.opened, .field "size" (numAt b 0 4), .closed] := by
  have hf := fetch_passed mem b 4 a h h0 ha (by omega)
  rw [mntIdReq, hf]
  simp only [fld_take b 0 4 4 (by omega)]
  rw [if_pos hs]; rfl

/-- Two calls that set different policies and keep the other parameters (SCHED_FLAG_KEEP_PARAMS without
SCHED_FLAG_KEEP_POLICY) give the same text. -/
theorem schedSet_policy_hidden : ∃ b b' : List Byte, numAt b 4 4 ≠ numAt b' 4 4 ∧ numAt b 8 8 = 0x10 ∧ numAt b' 8 8 = 0x10 ∧
    b.length = 48 ∧ b'.length = 48 ∧ numAt b 0 4 = 48 ∧ numAt b' 0 4 = 48 ∧
    schedSet (memOf 0x1000 b) true 0x1000 = schedSet (memOf 0x1000 b') true 0x1000 := by
  refine ⟨[48, 0, 0, 0, 3, 0, 0, 0, 16] ++ List.replicate 39 0, [48, 0, 0, 0, 5, 0, 0, 0, 16] ++ List.replicate 39 0,
    ?_, ?_, ?_, ?_, ?_, ?_, ?_, ?_⟩ <;> decide +kernel

end Strace.Sized
