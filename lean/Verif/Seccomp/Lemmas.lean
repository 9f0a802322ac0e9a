import Verif.Base.Bits
import Verif.Seccomp.Spec
namespace Strace.Seccomp
open Strace.Base

/-! ### the machine, instruction by instruction -/

theorem run_ret (d : Data) (k : Nat) (r : List Insn) (a x : Nat) :
    run d (stmt RET_K k :: r) a x = some k := by
  rw [run]; simp [stmt, RET_K]
theorem run_ld_nr (d : Data) (r : List Insn) (a x : Nat) :
    run d (stmt LD_ABS OFF_NR :: r) a x = run d r d.nr x := by
  rw [run]; simp [stmt, RET_K, LD_ABS, OFF_NR]
theorem run_ld_arch (d : Data) (r : List Insn) (a x : Nat) :
    run d (stmt LD_ABS OFF_ARCH :: r) a x = run d r d.arch x := by
  rw [run]; simp [stmt, RET_K, LD_ABS, OFF_NR, OFF_ARCH]
theorem run_ld_imm (d : Data) (k : Nat) (r : List Insn) (a x : Nat) :
    run d (stmt LD_IMM k :: r) a x = run d r k x := by
  rw [run]; simp [stmt, RET_K, LD_ABS, LD_IMM]
theorem run_and (d : Data) (k : Nat) (r : List Insn) (a x : Nat) :
    run d (stmt AND_K k :: r) a x = run d r (a &&& k) x := by
  rw [run]; simp [stmt, RET_K, LD_ABS, LD_IMM, AND_K]
theorem run_lsh (d : Data) (k : Nat) (r : List Insn) (a x : Nat) :
    run d (stmt LSH_X k :: r) a x = run d r (a * 2 ^ x % 2 ^ 32) x := by
  rw [run]; simp [stmt, RET_K, LD_ABS, LD_IMM, AND_K, LSH_X]
theorem run_rsh (d : Data) (k : Nat) (r : List Insn) (a x : Nat) :
    run d (stmt RSH_K k :: r) a x = run d r (a / 2 ^ k) x := by
  rw [run]; simp [stmt, RET_K, LD_ABS, LD_IMM, AND_K, LSH_X, RSH_K]
theorem run_tax (d : Data) (k : Nat) (r : List Insn) (a x : Nat) :
    run d (stmt TAX k :: r) a x = run d r a a := by
  rw [run]; simp [stmt, RET_K, LD_ABS, LD_IMM, AND_K, LSH_X, RSH_K, TAX]
theorem run_txa (d : Data) (k : Nat) (r : List Insn) (a x : Nat) :
    run d (stmt TXA k :: r) a x = run d r x x := by
  rw [run]; simp [stmt, RET_K, LD_ABS, LD_IMM, AND_K, LSH_X, RSH_K, TAX, TXA]
theorem run_ja (d : Data) (k jt jf : Nat) (r : List Insn) (a x : Nat) :
    run d (jump JA k jt jf :: r) a x = run d (r.drop k) a x := by
  rw [run]; simp [jump, RET_K, LD_ABS, LD_IMM, AND_K, LSH_X, RSH_K, TAX, TXA, JA]
theorem run_jeq (d : Data) (k jt jf : Nat) (r : List Insn) (a x : Nat) :
    run d (jump JEQ_K k jt jf :: r) a x = run d (r.drop (if a = k then jt else jf)) a x := by
  rw [run]; simp [jump, RET_K, LD_ABS, LD_IMM, AND_K, LSH_X, RSH_K, TAX, TXA, JA, JEQ_K]
  by_cases h : a = k <;> simp [h]
theorem run_jge (d : Data) (k jt jf : Nat) (r : List Insn) (a x : Nat) :
    run d (jump JGE_K k jt jf :: r) a x = run d (r.drop (if a ≥ k then jt else jf)) a x := by
  rw [run]; simp [jump, RET_K, LD_ABS, LD_IMM, AND_K, LSH_X, RSH_K, TAX, TXA, JA, JEQ_K, JGE_K]
theorem run_jset (d : Data) (k jt jf : Nat) (r : List Insn) (a x : Nat) :
    run d (jump JSET_K k jt jf :: r) a x = run d (r.drop (if a &&& k ≠ 0 then jt else jf)) a x := by
  rw [run]; simp [jump, RET_K, LD_ABS, LD_IMM, AND_K, LSH_X, RSH_K, TAX, TXA, JA, JEQ_K, JGE_K, JSET_K]
  by_cases h : a &&& k = 0 <;> simp [h]

/-! ### patching -/

theorem patch_length (pos i : Nat) (l : List Insn) : (patch pos i l).length = l.length := by
  induction l generalizing i with
  | nil => rfl
  | cons a l ih => simp [patch, ih]

theorem patch_append (pos i : Nat) (a b : List Insn) :
    patch pos i (a ++ b) = patch pos i a ++ patch pos (i + a.length) b := by
  induction a generalizing i with
  | nil => simp [patch]
  | cons x a ih =>
    simp only [List.cons_append, patch, ih, List.length_cons]
    rw [show i + 1 + a.length = i + (a.length + 1) from by omega]

/-- the two returns that end a section -/
def rets : List Insn := [stmt RET_K ALLOW, stmt RET_K TRACE]

theorem drop_trace {front : List Insn} (rest : List Insn) {k : Nat} (h : k = front.length + 1) :
    (front ++ rets ++ rest).drop k = stmt RET_K TRACE :: rest := by
  subst h
  rw [List.append_assoc, List.drop_append]
  simp [rets]

theorem drop_allow {front : List Insn} (rest : List Insn) {k : Nat} (h : k = front.length) :
    (front ++ rets ++ rest).drop k = rets ++ rest := by
  subst h
  rw [List.append_assoc, List.drop_append]
  simp [rets]

theorem drop_next {front : List Insn} (rest : List Insn) {k : Nat} (h : k = front.length) :
    (front ++ rest).drop k = rest := by
  subst h
  rw [List.drop_append]
  simp

theorem fix_stmt {code : Nat} (h : code % 8 ≠ 5) (pos i k : Nat) : fix pos i (stmt code k) = stmt code k := by
  simp [fix, stmt, h]

theorem fix_jump {code : Nat} (h : code % 8 = 5) (h2 : code / 16 % 16 ≠ 0) (pos i k jt jf : Nat) :
    fix pos i (jump code k jt jf) = jump code k
      (replaceJ jt ((pos - i - 1) % 256) ((pos - i - 2) % 256) ((pos - i - 3) % 256))
      (replaceJ jf ((pos - i - 1) % 256) ((pos - i - 2) % 256) ((pos - i - 3) % 256)) := by
  simp [fix, jump, h, h2]

theorem fix_ja (pos i k : Nat) :
    fix pos i (jump JA k 0 0) = jump JA ((pos - i - 1) % 256) 0 0 := by
  simp [fix, jump, JA, replaceJ, P_NEXT, P_TRACE, P_ALLOW]

theorem replaceJ_next (a b c : Nat) : replaceJ P_NEXT a b c = a := by simp [replaceJ]
theorem replaceJ_trace (a b c : Nat) : replaceJ P_TRACE a b c = b := by simp [replaceJ, P_NEXT, P_TRACE]
theorem replaceJ_allow (a b c : Nat) : replaceJ P_ALLOW a b c = c := by
  simp [replaceJ, P_NEXT, P_TRACE, P_ALLOW]
theorem replaceJ_small {j : Nat} (h : j < 253) (a b c : Nat) : replaceJ j a b c = j := by
  unfold replaceJ P_NEXT P_TRACE P_ALLOW
  rw [if_neg (by omega), if_neg (by omega), if_neg (by omega)]

/-! ### the linear generator -/

theorem or_flag {p : Pers} (h : Sane p) {x : Nat} (hx : x ≤ p.n) : x ||| p.flag = x + p.flag := by
  rcases h.flag with hf | ⟨b, _, _, hf, hn⟩
  · rw [hf]; simp
  · rw [hf, Nat.or_comm, Nat.add_comm]
    have := Nat.two_pow_add_eq_or_of_lt (b := x) (i := b) (by omega) 1
    simpa using this.symm

/-- one range comparison: with the section's two returns `front.length` instructions further on -/
theorem run_cmp (d : Data) (lower upper : Nat) (hlu : lower < upper) (pos i : Nat) (front rest : List Insn)
    (hpos : pos = i + (syscallsCmp lower upper).length + front.length + 2)
    (hsmall : pos - i ≤ 255) (x : Nat) :
    run d (patch pos i (syscallsCmp lower upper) ++ front ++ rets ++ rest) d.nr x =
      if lower ≤ d.nr ∧ d.nr < upper then some TRACE
      else run d (front ++ rets ++ rest) d.nr x := by
  unfold syscallsCmp at hpos ⊢
  by_cases h1 : lower + 1 = upper
  · rw [if_pos h1] at hpos ⊢
    simp only [List.length_singleton] at hpos
    simp only [patch, List.cons_append, List.nil_append]
    rw [fix_jump (by decide) (by decide), replaceJ_trace, replaceJ_small (by omega), run_jeq]
    by_cases hn : d.nr = lower
    · rw [if_pos hn, if_pos (by omega), drop_trace _ (by omega), run_ret]
    · rw [if_neg hn, if_neg (by omega)]; rfl
  · rw [if_neg h1] at hpos ⊢
    simp only [List.length_cons, List.length_nil] at hpos
    simp only [patch, List.cons_append, List.nil_append]
    rw [fix_jump (by decide) (by decide), replaceJ_small (by omega), replaceJ_small (by omega),
      fix_jump (by decide) (by decide), replaceJ_trace, replaceJ_small (by omega), run_jge]
    by_cases hn : d.nr ≥ lower
    · rw [if_pos hn, List.drop_zero, run_jge]
      by_cases hu : d.nr ≥ upper
      · rw [if_pos hu, if_neg (by omega)]; rfl
      · rw [if_neg hu, if_pos (by omega), drop_trace _ (by omega), run_ret]
    · rw [if_neg hn, if_neg (by omega)]; rfl

theorem syscallsCmp_length_le (l u : Nat) : (syscallsCmp l u).length ≤ 2 := by
  unfold syscallsCmp; split <;> simp

/-- the tail of a linear section -/
def linTail (p : Pers) : Insn := jump JGE_K (p.n ||| p.flag) 1 0

theorem run_linTail (d : Data) (p : Pers) (h : Sane p) (rest : List Insn) (x : Nat) :
    run d ([linTail p] ++ rets ++ rest) d.nr x =
      if p.n + p.flag ≤ d.nr then some TRACE else some ALLOW := by
  simp only [List.cons_append, List.nil_append]
  rw [linTail, run_jge, or_flag h (Nat.le_refl _)]
  by_cases hn : d.nr ≥ p.n + p.flag
  · rw [if_pos hn, if_pos hn]; exact run_ret _ _ _ _ _
  · rw [if_neg hn, if_neg hn]; exact run_ret _ _ _ _ _

/-- the comparison chain, from number `i` on with a pending range starting at `lower` -/
theorem run_cmpLoop (d : Data) (p : Pers) (hs : Sane p) (i : Nat) (lower : Option Nat) :
    ∀ (pos idx : Nat) (rest : List Insn) (x : Nat),
    (hi : i ≤ p.n) →
    (hl : ∀ l, lower = some l → l < i ∧ ∀ s, l ≤ s → s < i → p.traced s = true) →
    (hpos : pos = idx + (cmpLoop p i lower).length + 3) →
    (hsmall : pos - idx ≤ 255) →
    run d (patch pos idx (cmpLoop p i lower) ++ [linTail p] ++ rets ++ rest) d.nr x =
      if p.n + p.flag ≤ d.nr then some TRACE
      else if (lower.getD i + p.flag ≤ d.nr ∧ p.traced (d.nr - p.flag) = true) then some TRACE
      else some ALLOW := by
  fun_induction cmpLoop p i lower with
  | case1 i hin ht ih =>
    intro pos idx rest x hi hl hpos hsmall
    rw [ih pos idx rest x (by omega) (by
      intro l hl'; injection hl' with hl'; subst hl'
      exact ⟨by omega, fun s h1 h2 => by have : s = i := by omega
                                         rw [this]; exact ht⟩) hpos hsmall]
    simp
  | case2 i hin ht l ih =>
    intro pos idx rest x hi hl hpos hsmall
    have := hl l rfl
    rw [ih pos idx rest x (by omega) (by
      intro l' hl'; injection hl' with hl'; subst hl'
      refine ⟨by omega, fun s h1 h2 => ?_⟩
      by_cases hsi : s = i
      · rw [hsi]; exact ht
      · exact this.2 s h1 (by omega)) hpos hsmall]
    simp
  | case3 i hin ht ih =>
    intro pos idx rest x hi hl hpos hsmall
    rw [ih pos idx rest x (by omega) (by intro l hl'; cases hl') hpos hsmall]
    simp only [Option.getD_none]
    by_cases h1 : p.n + p.flag ≤ d.nr
    · rw [if_pos h1, if_pos h1]
    · rw [if_neg h1, if_neg h1]
      by_cases he : d.nr = i + p.flag
      · have hf : p.traced (d.nr - p.flag) = false := by
          rw [he, Nat.add_sub_cancel]; simpa using ht
        rw [if_neg (by rw [hf]; simp), if_neg (by rw [hf]; simp)]
      · by_cases h2 : i + 1 + p.flag ≤ d.nr
        · simp only [h2, show i + p.flag ≤ d.nr from by omega]
        · simp only [h2, show ¬ i + p.flag ≤ d.nr from by omega]
  | case4 i hin ht l ih =>
    intro pos idx rest x hi hl hpos hsmall
    have hl' := hl l rfl
    rw [patch_append]
    simp only [List.append_assoc]
    simp only [List.length_append] at hpos
    have hc := run_cmp d (l ||| p.flag) (i ||| p.flag)
      (by rw [or_flag hs (by omega), or_flag hs (by omega)]; omega) pos idx
      (patch pos (idx + (syscallsCmp (l ||| p.flag) (i ||| p.flag)).length) (cmpLoop p (i + 1) none) ++ [linTail p])
      rest (by rw [List.length_append, patch_length]; simp; omega) hsmall x
    simp only [List.append_assoc] at hc
    rw [hc]
    have := ih pos (idx + (syscallsCmp (l ||| p.flag) (i ||| p.flag)).length) rest x (by omega)
      (by intro l hl'; cases hl') (by omega) (by omega)
    simp only [List.append_assoc] at this
    rw [this, or_flag hs (by omega), or_flag hs (by omega)]
    simp only [Option.getD_none, Option.getD_some]
    by_cases h1 : p.n + p.flag ≤ d.nr
    · rw [if_pos h1, if_pos h1, if_neg (by omega)]
    · rw [if_neg h1, if_neg h1]
      by_cases h2 : l + p.flag ≤ d.nr ∧ d.nr < i + p.flag
      · rw [if_pos h2, if_pos ⟨h2.1, hl'.2 _ (by omega) (by omega)⟩]
      · rw [if_neg h2]
        by_cases he : d.nr = i + p.flag
        · have hf : p.traced (d.nr - p.flag) = false := by
            rw [he, Nat.add_sub_cancel]; simpa using ht
          rw [if_neg (by rw [hf]; simp), if_neg (by rw [hf]; simp)]
        · by_cases h3 : i + 1 + p.flag ≤ d.nr
          · simp only [h3, show l + p.flag ≤ d.nr from by omega]
          · simp only [h3, show ¬ l + p.flag ≤ d.nr from by omega]
  | case5 i hin =>
    intro pos idx rest x hi hl hpos hsmall
    have : i = p.n := by omega
    subst this
    simp only [patch, List.nil_append, Option.getD_none]
    rw [run_linTail d p hs]
    by_cases h1 : p.n + p.flag ≤ d.nr
    · rw [if_pos h1, if_pos h1]
    · rw [if_neg h1, if_neg h1, if_neg (by omega)]
  | case6 i hin l =>
    intro pos idx rest x hi hl hpos hsmall
    have : i = p.n := by omega
    subst this
    have hl' := hl l rfl
    rw [run_cmp d _ _ (by rw [or_flag hs (by omega), or_flag hs (by omega)]; omega) pos idx _ rest (by simp; omega) hsmall x,
      run_linTail d p hs, or_flag hs (by omega), or_flag hs (by omega)]
    simp only [Option.getD_some]
    by_cases h1 : p.n + p.flag ≤ d.nr
    · rw [if_pos h1, if_pos h1, if_neg (by omega)]
    · rw [if_neg h1, if_neg h1]
      by_cases h2 : l + p.flag ≤ d.nr
      · rw [if_pos ⟨h2, by omega⟩, if_pos ⟨h2, hl'.2 _ (by omega) (by omega)⟩]
      · rw [if_neg (by omega), if_neg (by omega)]

/-- The entry of a section passes the calls of its personality on to the section's body and hands all
others, with the accumulator restored, to whatever follows the section. -/
theorem run_entry (d : Data) (p : Pers) (pos idx : Nat) (front rest : List Insn) (x : Nat)
    (hpos : pos = idx + (linPrelude true p).length + front.length) (hsmall : pos - idx ≤ 255) :
    run d (patch pos idx (linPrelude true p) ++ front ++ rest) d.arch x =
      if d.arch = p.arch ∧ p.flag ≤ d.nr then run d (front ++ rest) d.nr x else run d rest d.arch x := by
  by_cases hf : p.flag = 0
  · simp [linPrelude, hf] at hpos
    simp only [linPrelude, hf, ite_true, ne_eq, not_true, decide_false, Bool.and_false, Bool.false_eq_true,
      ite_false, List.cons_append, List.nil_append, patch, Nat.zero_le, and_true]
    rw [fix_jump (by decide) (by decide), replaceJ_next, replaceJ_small (by omega), run_jeq,
      fix_stmt (by decide)]
    by_cases ha : d.arch = p.arch
    · rw [if_pos ha, if_pos ha, List.drop_zero, run_ld_nr]
    · rw [if_neg ha, if_neg ha]
      rw [show stmt LD_ABS OFF_NR :: (front ++ rest) = (stmt LD_ABS OFF_NR :: front) ++ rest from rfl]
      rw [drop_next _ (by simp; omega)]
  · simp [linPrelude, hf] at hpos
    simp only [linPrelude, hf, ite_true, ne_eq, not_false_eq_true, decide_true, Bool.and_true,
      List.cons_append, List.nil_append, patch]
    rw [fix_jump (by decide) (by decide), replaceJ_next, replaceJ_small (by omega), run_jeq,
      fix_stmt (by decide), fix_jump (by decide) (by decide), replaceJ_small (by omega),
      replaceJ_small (by omega), fix_stmt (by decide), fix_ja]
    by_cases ha : d.arch = p.arch
    · rw [if_pos ha, List.drop_zero, run_ld_nr, run_jge]
      by_cases hn : d.nr ≥ p.flag
      · rw [if_pos hn, if_pos ⟨ha, hn⟩]; rfl
      · rw [if_neg hn, if_neg (by omega), List.drop_zero, run_ld_arch, run_ja, drop_next _ (by omega)]
    · rw [if_neg ha, if_neg (by omega)]
      generalize fix pos idx = f
      rw [show ∀ a b c e : Insn, a :: b :: c :: e :: (front ++ rest) = (a :: b :: c :: e :: front) ++ rest
        from fun _ _ _ _ => rfl]
      rw [drop_next _ (by simp; omega)]

theorem run_entry1 (d : Data) (p : Pers) (pos idx : Nat) (rest : List Insn) (a x : Nat) :
    run d (patch pos idx (linPrelude false p) ++ rest) a x = run d rest d.nr x := by
  simp only [linPrelude, Bool.false_eq_true, ite_false, Bool.false_and, List.nil_append, List.append_nil,
    patch, List.cons_append]
  rw [fix_stmt (by decide), run_ld_nr]

/-- the decision about a call known to belong to `p` -/
def linVerdict (p : Pers) (d : Data) : Option Nat :=
  if d.nr - p.flag < p.n ∧ p.traced (d.nr - p.flag) = false then some ALLOW else some TRACE

theorem run_linBody (d : Data) (p : Pers) (hs : Sane p) (pos idx : Nat) (rest : List Insn) (x : Nat)
    (hfl : p.flag ≤ d.nr) (hpos : pos = idx + (cmpLoop p 0 none).length + 3) (hsmall : pos - idx ≤ 255) :
    run d (patch pos idx (cmpLoop p 0 none) ++ [linTail p] ++ rets ++ rest) d.nr x = linVerdict p d := by
  rw [run_cmpLoop d p hs 0 none pos idx rest x (by omega) (by intro l h; cases h) hpos hsmall]
  simp only [Option.getD_none, Nat.zero_add, hfl, true_and, linVerdict]
  by_cases h1 : p.n + p.flag ≤ d.nr
  · rw [if_pos h1, if_neg (by omega)]
  · rw [if_neg h1]
    cases ht : p.traced (d.nr - p.flag)
    · rw [if_neg (by simp), if_pos ⟨by omega, rfl⟩]
    · rw [if_pos rfl, if_neg (by simp)]

theorem linSection_eq {multi : Bool} {pos : Nat} {p : Pers} {sec : List Insn}
    (h : linSection multi pos p = (sec, false)) :
    let L := (linPrelude multi p).length + (cmpLoop p 0 none).length + 3
    L ≤ 255 ∧ sec = patch (pos + L) pos (linPrelude multi p) ++
      patch (pos + L) (pos + (linPrelude multi p).length) (cmpLoop p 0 none) ++ [linTail p] ++ rets := by
  unfold linSection at h
  dsimp only at h
  split at h
  · cases h
  · rename_i hlen
    injection h with h _
    simp only [List.length_append, List.length_cons, List.length_nil, patch_append] at h hlen
    refine ⟨by omega, ?_⟩
    rw [← h, linTail, rets]
    simp [List.append_assoc]

theorem run_linSection (d : Data) (p : Pers) (hs : Sane p) (pos : Nat) (sec rest : List Insn) (x : Nat)
    (h : linSection true pos p = (sec, false)) :
    run d (sec ++ rest) d.arch x =
      if d.arch = p.arch ∧ p.flag ≤ d.nr then linVerdict p d else run d rest d.arch x := by
  obtain ⟨hL, rfl⟩ := linSection_eq h
  generalize hLe : (linPrelude true p).length + (cmpLoop p 0 none).length + 3 = L at *
  have he := run_entry d p (pos + L) pos
    (patch (pos + L) (pos + (linPrelude true p).length) (cmpLoop p 0 none) ++ [linTail p] ++ rets) rest x
    (by simp only [List.length_append, patch_length, rets, List.length_cons, List.length_nil]; omega) (by omega)
  simp only [List.append_assoc] at he ⊢
  rw [he]
  by_cases hg : d.arch = p.arch ∧ p.flag ≤ d.nr
  · rw [if_pos hg, if_pos hg]
    have := run_linBody d p hs (pos + L) (pos + (linPrelude true p).length) rest x hg.2 (by omega) (by omega)
    simp only [List.append_assoc] at this
    exact this
  · rw [if_neg hg, if_neg hg]

theorem run_linSection1 (d : Data) (p : Pers) (hs : Sane p) (pos : Nat) (sec rest : List Insn) (a x : Nat)
    (hfl : p.flag ≤ d.nr) (h : linSection false pos p = (sec, false)) :
    run d (sec ++ rest) a x = linVerdict p d := by
  obtain ⟨hL, rfl⟩ := linSection_eq h
  generalize hLe : (linPrelude false p).length + (cmpLoop p 0 none).length + 3 = L at *
  simp only [List.append_assoc]
  rw [run_entry1]
  have := run_linBody d p hs (pos + L) (pos + (linPrelude false p).length) rest x hfl (by omega) (by omega)
  simp only [List.append_assoc] at this
  exact this

/-! ### the frame shared by both generators -/

theorem secLoop_append (sec : Nat → Pers → List Insn × Bool) (limit : Option Nat) (ps : List Pers)
    (acc prog : List Insn) (h : secLoop sec limit ps acc = (prog, false)) : ∃ s, prog = acc ++ s := by
  induction ps generalizing acc with
  | nil => simp [secLoop] at h; exact ⟨[], by simp [h]⟩
  | cons p ps ih =>
    unfold secLoop at h
    split at h
    · split at h
      · cases h
      · obtain ⟨s, hs⟩ := ih _ h
        exact ⟨_, by rw [hs, List.append_assoc]⟩
    · injection h with h _
      exact ⟨[], by simp [h]⟩

/-- a verdict per personality, and how the first section that applies decides -/
def decideBy (verdict : Pers → Data → Option Nat) (d : Data) : List Pers → Option Nat
  | [] => some TRACE
  | p :: ps => if d.arch = p.arch ∧ p.flag ≤ d.nr then verdict p d else decideBy verdict d ps

theorem run_secLoop (d : Data) (sec : Nat → Pers → List Insn × Bool) (limit : Option Nat)
    (verdict : Pers → Data → Option Nat) (ps : List Pers)
    (hlim : ∀ l, limit = some l → 4096 ≤ l)
    (hsec : ∀ p ∈ ps, ∀ pos s rest x, sec pos p = (s, false) →
      (pos + s.length ≤ 4096) →
      run d (s ++ rest) d.arch x =
        if d.arch = p.arch ∧ p.flag ≤ d.nr then verdict p d else run d rest d.arch x)
    (acc prog : List Insn) (h : secLoop sec limit ps acc = (prog, false)) (hlen : prog.length ≤ 4096)
    (out : List Insn) (hp : prog = acc ++ out) (x : Nat) :
    run d (out ++ [stmt RET_K TRACE]) d.arch x = decideBy verdict d ps := by
  induction ps generalizing acc out with
  | nil =>
    simp only [secLoop, Prod.mk.injEq, and_true] at h
    rw [← h] at hp
    have : out = [] := by simpa using hp
    subst this
    simp [run_ret, decideBy]
  | cons p ps ih =>
    unfold secLoop at h
    split at h
    · split at h
      · cases h
      · rename_i s hsp
        obtain ⟨o, ho⟩ := secLoop_append _ _ _ _ _ h
        have hout : out = s ++ o := by
          rw [ho, List.append_assoc] at hp
          exact (List.append_cancel_left hp).symm
        have := hsec p (by simp) acc.length s (o ++ [stmt RET_K TRACE]) x hsp
          (by have := congrArg List.length ho; simp at this; omega)
        rw [hout, List.append_assoc, this, decideBy]
        split
        · rfl
        · exact ih (fun q hq => hsec q (by simp [hq])) (acc ++ s) h o ho
    · rename_i hc
      injection h with h _
      exfalso
      cases hl : limit with
      | none => simp [hl, within] at hc
      | some l => have := hlim l hl; simp [hl, h, within] at hc; omega

theorem decideBy_governs (verdict : Pers → Data → Option Nat) (d : Data) (ps : List Pers) (p : Pers)
    (h : Governs ps d p) : decideBy verdict d ps.reverse = verdict p d := by
  obtain ⟨low, high, rfl, ha, hf, hq⟩ := h
  rw [List.reverse_append, List.reverse_cons, List.append_assoc]
  have : ∀ (l : List Pers) (r : List Pers), (∀ q ∈ l, ¬ (d.arch = q.arch ∧ q.flag ≤ d.nr)) →
      decideBy verdict d (l ++ r) = decideBy verdict d r := by
    intro l r hl
    induction l with
    | nil => rfl
    | cons q l ih => rw [List.cons_append, decideBy, if_neg (hl q (by simp)), ih (fun q' h => hl q' (by simp [h]))]
  rw [this _ _ (by intro q hq'; exact hq q (by simpa using hq'))]
  simp [decideBy, ha, hf]

theorem decideBy_foreign (verdict : Pers → Data → Option Nat) (d : Data) (ps : List Pers)
    (h : Foreign ps d) : decideBy verdict d ps.reverse = some TRACE := by
  have : ∀ l : List Pers, (∀ q ∈ l, ¬ (d.arch = q.arch ∧ q.flag ≤ d.nr)) →
      decideBy verdict d l = some TRACE := by
    intro l hl
    induction l with
    | nil => rfl
    | cons q l ih => rw [decideBy, if_neg (hl q (by simp)), ih (fun q' h => hl q' (by simp [h]))]
  exact this _ (by intro q hq; exact h q (by simpa using hq))

/-- several personalities -/
theorem run_generate (d : Data) (sec : Bool → Nat → Pers → List Insn × Bool) (limit : Option Nat)
    (verdict : Pers → Data → Option Nat) (ps : List Pers) (hps : 1 < ps.length)
    (hlim : ∀ l, limit = some l → 4096 ≤ l)
    (hsec : ∀ p ∈ ps, ∀ pos s rest x, sec true pos p = (s, false) → (pos + s.length ≤ 4096) →
      run d (s ++ rest) d.arch x =
        if d.arch = p.arch ∧ p.flag ≤ d.nr then verdict p d else run d rest d.arch x)
    (prog : List Insn) (h : generate sec limit ps = (prog, false)) (hlen : prog.length ≤ 4096) (a x : Nat) :
    run d prog a x = decideBy verdict d ps.reverse := by
  unfold generate at h
  simp only [hps, decide_true, ite_true, gt_iff_lt] at h
  split at h
  · cases h
  · rename_i pr hpr
    injection h with h _
    obtain ⟨o, ho⟩ := secLoop_append _ _ _ _ _ hpr
    rw [← h, ho, List.append_assoc, List.cons_append, List.nil_append, run_ld_arch]
    refine run_secLoop d (sec true) limit verdict ps.reverse hlim (fun p hp => hsec p (by simpa using hp)) _ pr hpr
      (by rw [← h] at hlen; simp at hlen; omega) o ho x

/-- one personality -/
theorem generate_one (sec : Bool → Nat → Pers → List Insn × Bool) (limit : Option Nat) (p : Pers)
    (prog : List Insn) (h : generate sec limit [p] = (prog, false)) : sec false 0 p = (prog, false) := by
  unfold generate at h
  simp only [List.length_singleton, gt_iff_lt, Nat.lt_irrefl, decide_false, Bool.false_eq_true, ite_false,
    List.reverse_singleton, List.append_nil] at h
  unfold secLoop at h
  split at h
  · cases h
  · rename_i pr hpr
    split at hpr
    · split at hpr
      · cases hpr
      · rename_i s hs
        simp only [secLoop, List.nil_append] at hpr
        rw [← h, ← hpr]; exact hs
    · rename_i hc
      exfalso; apply hc; cases limit <;> simp [within]

/-! ### the bit array generator -/

/-- the number looked up by the program of a personality -/
def masked (p : Pers) (nr : Nat) : Nat := if p.flag = 0 then nr else nr &&& notFlag p

theorem testBit_notFlag {p : Pers} {b : Nat} (hb : b < 32) (hf : p.flag = 2 ^ b) (j : Nat) :
    (notFlag p).testBit j = (decide (j < 32) && decide (j ≠ b)) := by
  unfold notFlag
  rw [hf, show 2 ^ 32 - 1 - 2 ^ b = 2 ^ 32 - (2 ^ b + 1) from by omega,
    Nat.testBit_two_pow_sub_succ (Nat.pow_lt_pow_right (by omega) hb), Nat.testBit_two_pow]
  by_cases h : b = j
  · subst h; simp
  · have : ¬ j = b := fun h' => h h'.symm
    simp [h, this]

theorem masked_mod {p : Pers} (hs : Sane p) {nr : Nat} : masked p nr % 32 = nr % 32 := by
  unfold masked
  rcases hs.flag with h | ⟨b, h5, h32, hf, hn⟩
  · rw [if_pos h]
  · rw [if_neg (by rw [hf]; exact Nat.ne_of_gt (Nat.two_pow_pos b))]
    apply Nat.eq_of_testBit_eq
    intro j
    rw [show (32 : Nat) = 2 ^ 5 from rfl, Nat.testBit_mod_two_pow, Nat.testBit_mod_two_pow, Nat.testBit_and,
      testBit_notFlag h32 hf]
    by_cases hj : j < 5
    · simp [hj, show j < 32 from by omega, show ¬ j = b from by omega]
    · simp [hj]

/-- below the table size the masked number is the number relative to the flag, otherwise it is outside
the table as well -/
theorem masked_spec {p : Pers} (hs : Sane p) {nr : Nat} (hnr : nr < 2 ^ 32) (hfl : p.flag ≤ nr) :
    (nr - p.flag < p.n → masked p nr = nr - p.flag) ∧ (p.n ≤ nr - p.flag → p.n ≤ masked p nr) := by
  unfold masked
  rcases hs.flag with h | ⟨b, h5, h32, hf, hn⟩
  · rw [if_pos h, h]; exact ⟨fun _ => rfl, fun h => h⟩
  · rw [if_neg (by rw [hf]; exact Nat.ne_of_gt (Nat.two_pow_pos b))]
    have hp : 2 ^ (b + 1) = 2 * 2 ^ b := by rw [Nat.pow_succ, Nat.mul_comm]
    by_cases hlt : nr < 2 ^ (b + 1)
    · have : nr &&& notFlag p = nr - p.flag := by
        have h1 : nr - p.flag = nr % 2 ^ b := by
          rw [hf] at hfl ⊢
          rw [Nat.mod_eq_sub_mod hfl, Nat.mod_eq_of_lt (by omega)]
        rw [h1]
        apply Nat.eq_of_testBit_eq
        intro j
        rw [Nat.testBit_mod_two_pow, Nat.testBit_and, testBit_notFlag h32 hf]
        by_cases hj : j < b
        · simp [hj, show j < 32 from by omega, show ¬ j = b from by omega]
        · by_cases hjb : j = b
          · simp [hjb]
          · have : nr.testBit j = false := Nat.testBit_lt_two_pow (Nat.lt_of_lt_of_le hlt (Nat.pow_le_pow_right (by omega) (by omega)))
            simp [this]
      rw [this]
      exact ⟨fun _ => rfl, fun h => h⟩
    · constructor
      · intro h; rw [hf] at h hfl; omega
      · intro _
        have h1 : (nr &&& notFlag p) / 2 ^ (b + 1) = nr / 2 ^ (b + 1) := by
          apply Nat.eq_of_testBit_eq
          intro j
          rw [Nat.testBit_div_two_pow, Nat.testBit_div_two_pow, Nat.testBit_and, testBit_notFlag h32 hf]
          by_cases hj : j + (b + 1) < 32
          · have : ¬ j + (b + 1) = b := by omega
            simp [hj, this]
          · have : nr.testBit (j + (b + 1)) = false :=
              Nat.testBit_lt_two_pow (Nat.lt_of_lt_of_le hnr (Nat.pow_le_pow_right (by omega) (by omega)))
            simp [this]
        have h2 : 1 ≤ nr / 2 ^ (b + 1) := (Nat.one_le_div_iff (Nat.two_pow_pos _)).mpr (by omega)
        rw [← h1, Nat.one_le_div_iff (Nat.two_pow_pos _)] at h2
        omega

/-- one word of the bit array -/
theorem run_match (d : Data) (bits idx q r : Nat) (hbits : bits < 2 ^ 32) (hr : r < 32)
    (pos i : Nat) (front rest : List Insn)
    (hpos : pos = i + (syscallsMatch bits idx).length + front.length + 2) (hsmall : pos - i ≤ 255) :
    run d (patch pos i (syscallsMatch bits idx) ++ front ++ rets ++ rest) q (2 ^ r) =
      if q = idx then (if bits.testBit r then some TRACE else some ALLOW)
      else run d (front ++ rets ++ rest) q (2 ^ r) := by
  unfold syscallsMatch at hpos ⊢
  by_cases h0 : bits = 0
  · rw [if_pos h0] at hpos ⊢
    simp only [List.length_singleton] at hpos
    simp only [patch, List.cons_append, List.nil_append]
    rw [fix_jump (by decide) (by decide), replaceJ_allow, replaceJ_small (by omega), run_jeq]
    by_cases hq : q = idx
    · rw [if_pos hq, if_pos hq, drop_allow _ (by omega), h0]
      simp only [Nat.zero_testBit, Bool.false_eq_true, ite_false]
      exact run_ret _ _ _ _ _
    · rw [if_neg hq, if_neg hq]; rfl
  · rw [if_neg h0] at hpos ⊢
    by_cases h1 : bits = 2 ^ 32 - 1
    · rw [if_pos h1] at hpos ⊢
      simp only [List.length_singleton] at hpos
      simp only [patch, List.cons_append, List.nil_append]
      rw [fix_jump (by decide) (by decide), replaceJ_trace, replaceJ_small (by omega), run_jeq]
      by_cases hq : q = idx
      · rw [if_pos hq, if_pos hq, drop_trace _ (by omega), h1, Nat.testBit_two_pow_sub_one, run_ret]
        simp [hr]
      · rw [if_neg hq, if_neg hq]; rfl
    · rw [if_neg h1] at hpos ⊢
      simp only [List.length_cons, List.length_nil] at hpos
      simp only [patch, List.cons_append, List.nil_append]
      rw [fix_jump (by decide) (by decide), replaceJ_small (by omega), replaceJ_small (by omega),
        fix_stmt (by decide), fix_jump (by decide) (by decide), replaceJ_trace, replaceJ_allow, run_jeq]
      by_cases hq : q = idx
      · rw [if_pos hq, if_pos hq, List.drop_zero, run_txa, run_jset]
        by_cases hb : bits.testBit r = true
        · have : (2 ^ r &&& bits) ≠ 0 := by rw [Nat.and_comm]; exact (and_two_pow_ne_zero bits r).mpr hb
          rw [if_pos this, if_pos hb, drop_trace _ (by omega), run_ret]
        · have : ¬ (2 ^ r &&& bits) ≠ 0 := by
            rw [Nat.and_comm]; exact fun h => hb ((and_two_pow_ne_zero bits r).mp h)
          rw [if_neg this, if_neg hb, drop_allow _ (by omega)]
          exact run_ret _ _ _ _ _
      · rw [if_neg hq, if_neg hq]; rfl

theorem testBit_addBit {tr : Bool} {bits i j : Nat} :
    (addBit tr bits i).testBit j = (bits.testBit j || (tr && decide (i % 32 = j))) := by
  unfold addBit
  cases tr
  · simp
  · simp [Nat.testBit_or, Nat.testBit_two_pow]

theorem lt_of_bits {bits k : Nat} (h : ∀ j, k ≤ j → bits.testBit j = false) : bits < 2 ^ k :=
  Nat.lt_pow_two_of_testBit _ h

/-- the bit array from number `i` on, with the bits of the current word collected so far -/
theorem run_matchLoop (d : Data) (p : Pers) (m : Nat) (wpos i bits : Nat) :
    ∀ (pos idx : Nat) (rest : List Insn),
    (hi : i ≤ p.n) →
    (hw : wpos + (matchLoop p wpos i bits).length ≤ 4096) →
    (hb : ∀ j, bits.testBit j = (decide (j < i % 32) && p.traced (i / 32 * 32 + j))) →
    (hpos : pos = idx + (matchLoop p wpos i bits).length + 2) →
    (hsmall : pos - idx ≤ 255) →
    run d (patch pos idx (matchLoop p wpos i bits) ++ rets ++ rest) (m / 32) (2 ^ (m % 32)) =
      if i / 32 * 32 ≤ m ∧ m < p.n ∧ p.traced m = true then some TRACE else some ALLOW := by
  fun_induction matchLoop p wpos i bits with
  | case1 wpos i bits hin h31 ih =>
    intro pos idx rest hi hw hb hpos hsmall
    generalize hB : addBit (p.traced i) bits i = B at *
    have hBb : ∀ j, B.testBit j = (decide (j < 32) && p.traced (i / 32 * 32 + j)) := by
      intro j
      rw [← hB, testBit_addBit, hb]
      by_cases hj : j < 31
      · simp [show j < i % 32 from by omega, show j < 32 from by omega, show ¬ i % 32 = j from by omega]
      · by_cases hj' : j = 31
        · subst hj'
          simp [h31, show i / 32 * 32 + 31 = i from by omega]
        · simp [show ¬ j < i % 32 from by omega, show ¬ j < 32 from by omega, show ¬ i % 32 = j from by omega]
    have hBlt : B < 2 ^ 32 := lt_of_bits fun j hj => by rw [hBb]; simp [show ¬ j < 32 from by omega]
    rw [patch_append]
    simp only [List.append_assoc]
    simp only [List.length_append] at hpos hw
    have hm := run_match d B (i / 32) (m / 32) (m % 32) hBlt (by omega) pos idx
      (patch pos (idx + (syscallsMatch B (i / 32)).length)
        (matchLoop p (wpos + (syscallsMatch B (i / 32)).length) (i + 1) 0)) rest
      (by rw [patch_length]; omega) hsmall
    simp only [List.append_assoc] at hm
    rw [hm]
    have := ih pos (idx + (syscallsMatch B (i / 32)).length) rest (by omega) (by omega)
      (by intro j; simp [show (i + 1) % 32 = 0 from by omega]) (by omega) (by omega)
    simp only [List.append_assoc] at this
    rw [this, hBb]
    by_cases hq : m / 32 = i / 32
    · rw [if_pos hq]
      have e : i / 32 * 32 + m % 32 = m := by omega
      rw [e]
      have h1 : m % 32 < 32 := by omega
      by_cases ht : p.traced m = true
      · rw [if_pos (by simp [h1, ht]), if_pos ⟨by omega, by omega, ht⟩]
      · rw [if_neg (by simp [ht]), if_neg (by simp [ht])]
    · rw [if_neg hq]
      by_cases h2 : (i + 1) / 32 * 32 ≤ m
      · simp only [h2, show i / 32 * 32 ≤ m from by omega]
      · simp only [h2, show ¬ i / 32 * 32 ≤ m from by omega]
  | case2 wpos i bits hin h31 ih =>
    intro pos idx rest hi hw hb hpos hsmall
    rw [ih pos idx rest (by omega) hw (by
      intro j
      rw [testBit_addBit, hb, show (i + 1) / 32 = i / 32 from by omega, show (i + 1) % 32 = i % 32 + 1 from by omega]
      by_cases hj : i % 32 = j
      · subst hj
        rw [show i / 32 * 32 + i % 32 = i from by omega]
        simp
      · by_cases hj' : j < i % 32
        · simp [hj, hj', show j < i % 32 + 1 from by omega]
        · simp [hj, hj', show ¬ j < i % 32 + 1 from by omega]) hpos hsmall]
    rw [show (i + 1) / 32 = i / 32 from by omega]
  | case3 wpos i bits hc h0 =>
    intro pos idx rest hi hw hb hpos hsmall
    have hin : i = p.n := by
      have : ¬ 4096 < wpos := by omega
      omega
    have hBlt : bits < 2 ^ 32 := lt_of_bits fun j hj => by rw [hb]; simp [show ¬ j < i % 32 from by omega]
    have hm := run_match d bits (i / 32) (m / 32) (m % 32) hBlt (by omega) pos idx [] rest (by simp; omega) hsmall
    simp only [List.append_nil, List.append_assoc, List.nil_append] at hm
    simp only [List.append_assoc]
    rw [hm, hb]
    by_cases hq : m / 32 = i / 32
    · rw [if_pos hq]
      have e : i / 32 * 32 + m % 32 = m := by omega
      rw [e]
      by_cases ht : p.traced m = true
      · by_cases hlt : m % 32 < i % 32
        · rw [if_pos (by simp [hlt, ht]), if_pos ⟨by omega, by omega, ht⟩]
        · rw [if_neg (by simp [hlt]), if_neg (by omega)]
      · rw [if_neg (by simp [ht]), if_neg (by simp [ht])]
    · rw [if_neg hq, if_neg (by omega)]
      exact run_ret _ _ _ _ _
  | case4 wpos i bits hc h0 =>
    intro pos idx rest hi hw hb hpos hsmall
    have hin : i = p.n := by
      have : ¬ 4096 < wpos := by simp at hw; omega
      omega
    rw [if_neg (by omega)]
    exact run_ret _ _ _ _ _

/-- the instructions of the second generator between entry and bit array -/
def binMid (multi : Bool) (p : Pers) : List Insn :=
  (if multi && decide (p.flag ≠ 0) then [stmt AND_K (notFlag p)] else []) ++
  [stmt AND_K 0x1f, stmt TAX 0, stmt LD_IMM 1, stmt LSH_X 0, stmt TAX 0, stmt LD_ABS OFF_NR] ++
  (if p.flag ≠ 0 then [stmt AND_K (notFlag p)] else []) ++
  [stmt RSH_K 5]

theorem binPrelude_eq (multi : Bool) (p : Pers) : binPrelude multi p = linPrelude multi p ++ binMid multi p := by
  unfold binPrelude linPrelude binMid
  cases multi <;> by_cases h : p.flag = 0 <;> simp [h]

theorem run_binMid (d : Data) (p : Pers) (hs : Sane p) (multi : Bool) (pos idx : Nat) (rest : List Insn) (x : Nat) :
    run d (patch pos idx (binMid multi p) ++ rest) d.nr x =
      run d rest (masked p d.nr / 32) (2 ^ (masked p d.nr % 32)) := by
  have h31 : ∀ n : Nat, n &&& 0x1f = n % 32 := fun n => by
    rw [show (0x1f : Nat) = 2 ^ 5 - 1 from rfl, Nat.and_two_pow_sub_one_eq_mod]
  have hpow : ∀ n : Nat, 1 * 2 ^ (n % 32) % 2 ^ 32 = 2 ^ (n % 32) := fun n => by
    rw [Nat.one_mul]
    exact Nat.mod_eq_of_lt (Nat.pow_lt_pow_right (by omega) (Nat.mod_lt _ (by omega)))
  rw [masked_mod hs]
  by_cases hf : p.flag = 0
  · simp only [binMid, hf, ne_eq, not_true, decide_false, Bool.and_false, Bool.false_eq_true, ite_false,
      List.nil_append, List.cons_append, patch, List.append_nil]
    simp only [fix_stmt (show AND_K % 8 ≠ 5 by decide), fix_stmt (show TAX % 8 ≠ 5 by decide),
      fix_stmt (show LD_IMM % 8 ≠ 5 by decide), fix_stmt (show LSH_X % 8 ≠ 5 by decide),
      fix_stmt (show LD_ABS % 8 ≠ 5 by decide), fix_stmt (show RSH_K % 8 ≠ 5 by decide)]
    rw [run_and, run_tax, run_ld_imm, run_lsh, run_tax, run_ld_nr, run_rsh, h31, hpow]
    simp [masked, hf]
  · have hm := masked_mod hs (nr := d.nr)
    have hmk : masked p d.nr = d.nr &&& notFlag p := by simp [masked, hf]
    rw [hmk] at hm ⊢
    cases multi
    · simp only [binMid, hf, ne_eq, not_false_eq_true, decide_true, Bool.false_and, Bool.false_eq_true, ite_false, ite_true,
        List.nil_append, List.cons_append, patch]
      simp only [fix_stmt (show AND_K % 8 ≠ 5 by decide), fix_stmt (show TAX % 8 ≠ 5 by decide),
        fix_stmt (show LD_IMM % 8 ≠ 5 by decide), fix_stmt (show LSH_X % 8 ≠ 5 by decide),
        fix_stmt (show LD_ABS % 8 ≠ 5 by decide), fix_stmt (show RSH_K % 8 ≠ 5 by decide)]
      rw [run_and, run_tax, run_ld_imm, run_lsh, run_tax, run_ld_nr, run_and, run_rsh, h31, hpow]
    · simp only [binMid, hf, ne_eq, not_false_eq_true, decide_true, Bool.and_true, ite_true,
        List.nil_append, List.cons_append, patch]
      simp only [fix_stmt (show AND_K % 8 ≠ 5 by decide), fix_stmt (show TAX % 8 ≠ 5 by decide),
        fix_stmt (show LD_IMM % 8 ≠ 5 by decide), fix_stmt (show LSH_X % 8 ≠ 5 by decide),
        fix_stmt (show LD_ABS % 8 ≠ 5 by decide), fix_stmt (show RSH_K % 8 ≠ 5 by decide)]
      rw [run_and, run_and, run_tax, run_ld_imm, run_lsh, run_tax, run_ld_nr, run_and, run_rsh, h31, hm, hpow]

/-- the decision of the second generator: numbers beyond the table are let through -/
def binVerdict (p : Pers) (d : Data) : Option Nat :=
  if d.nr - p.flag < p.n ∧ p.traced (d.nr - p.flag) = true then some TRACE else some ALLOW

theorem run_binBody (d : Data) (p : Pers) (hs : Sane p) (multi : Bool) (wpos pos idx : Nat) (rest : List Insn) (x : Nat)
    (hnr : d.nr < 2 ^ 32) (hfl : p.flag ≤ d.nr)
    (hw : wpos + (matchLoop p wpos 0 0).length ≤ 4096)
    (hpos : pos = idx + (binMid multi p).length + (matchLoop p wpos 0 0).length + 2) (hsmall : pos - idx ≤ 255) :
    run d (patch pos idx (binMid multi p) ++ (patch pos (idx + (binMid multi p).length) (matchLoop p wpos 0 0) ++
      (rets ++ rest))) d.nr x = binVerdict p d := by
  rw [run_binMid d p hs]
  have := run_matchLoop d p (masked p d.nr) wpos 0 0 pos (idx + (binMid multi p).length) rest (by omega) hw
    (by intro j; simp) hpos (by omega)
  simp only [List.append_assoc] at this
  rw [this]
  have hm := masked_spec hs hnr hfl
  unfold binVerdict
  by_cases h : d.nr - p.flag < p.n
  · rw [hm.1 h]; simp [h]
  · have := hm.2 (by omega)
    rw [if_neg (by omega), if_neg (by omega)]

theorem binSection_eq {multi : Bool} {pos : Nat} {p : Pers} {sec : List Insn}
    (h : binSection multi pos p = (sec, false)) :
    let W := pos + (binPrelude multi p).length
    let L := (binPrelude multi p).length + (matchLoop p W 0 0).length + 2
    L ≤ 255 ∧ sec = patch (pos + L) pos (linPrelude multi p) ++
      patch (pos + L) (pos + (linPrelude multi p).length) (binMid multi p) ++
      patch (pos + L) (pos + (binPrelude multi p).length) (matchLoop p W 0 0) ++ rets := by
  unfold binSection at h
  dsimp only at h ⊢
  split at h
  · cases h
  · rename_i hlen
    injection h with h _
    simp only [List.length_append, List.length_cons, List.length_nil, patch_append] at h hlen
    refine ⟨by omega, ?_⟩
    rw [← h, rets]
    conv => lhs; rw [binPrelude_eq, patch_append]
    simp [List.append_assoc, binPrelude_eq]

theorem run_binSection (d : Data) (p : Pers) (hs : Sane p) (hnr : d.nr < 2 ^ 32) (pos : Nat) (sec rest : List Insn) (x : Nat)
    (h : binSection true pos p = (sec, false)) (hlen : pos + sec.length ≤ 4096) :
    run d (sec ++ rest) d.arch x =
      if d.arch = p.arch ∧ p.flag ≤ d.nr then binVerdict p d else run d rest d.arch x := by
  obtain ⟨hL, rfl⟩ := binSection_eq h
  simp only [List.length_append, patch_length] at hlen
  have hpl : (binPrelude true p).length = (linPrelude true p).length + (binMid true p).length := by
    rw [binPrelude_eq, List.length_append]
  generalize hW : pos + (binPrelude true p).length = W at *
  generalize hLe : (binPrelude true p).length + (matchLoop p W 0 0).length + 2 = L at *
  have he := run_entry d p (pos + L) pos
    (patch (pos + L) (pos + (linPrelude true p).length) (binMid true p) ++
      patch (pos + L) W (matchLoop p W 0 0) ++ rets) rest x
    (by simp only [List.length_append, patch_length, rets, List.length_cons, List.length_nil]; omega) (by omega)
  simp only [List.append_assoc] at he ⊢
  rw [he]
  by_cases hg : d.arch = p.arch ∧ p.flag ≤ d.nr
  · rw [if_pos hg, if_pos hg]
    have := run_binBody d p hs true W (pos + L) (pos + (linPrelude true p).length) rest x hnr hg.2 (by omega) (by omega) (by omega)
    rw [show pos + (linPrelude true p).length + (binMid true p).length = W from by omega] at this
    exact this
  · rw [if_neg hg, if_neg hg]

theorem run_binSection1 (d : Data) (p : Pers) (hs : Sane p) (hnr : d.nr < 2 ^ 32) (pos : Nat) (sec rest : List Insn) (a x : Nat)
    (hfl : p.flag ≤ d.nr) (h : binSection false pos p = (sec, false)) (hlen : pos + sec.length ≤ 4096) :
    run d (sec ++ rest) a x = binVerdict p d := by
  obtain ⟨hL, rfl⟩ := binSection_eq h
  simp only [List.length_append, patch_length] at hlen
  have hpl : (binPrelude false p).length = (linPrelude false p).length + (binMid false p).length := by
    rw [binPrelude_eq, List.length_append]
  generalize hW : pos + (binPrelude false p).length = W at *
  generalize hLe : (binPrelude false p).length + (matchLoop p W 0 0).length + 2 = L at *
  simp only [List.append_assoc]
  rw [run_entry1]
  have := run_binBody d p hs false W (pos + L) (pos + (linPrelude false p).length) rest x hnr hfl (by omega) (by omega) (by omega)
  rw [show pos + (linPrelude false p).length + (binMid false p).length = W from by omega] at this
  exact this

end Strace.Seccomp
