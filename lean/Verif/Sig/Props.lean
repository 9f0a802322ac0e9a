import Verif.Sig.Model
import Verif.Sig.Spec
/-!
C91: the members of a siginfo_t that are shown.
-/
namespace Strace.Sig
open Strace.Sized

/-! ### Values -/

theorem le_take_succ : ∀ (l : List Byte) (n : Nat), le (l.take (n + 1)) = le (l.take n) + (l.getD n 0).val * 256 ^ n
  | [], n => by simp [le]
  | b :: l, 0 => by simp [le]
  | b :: l, n + 1 => by
    rw [List.take_succ_cons, List.take_succ_cons, le, le, le_take_succ l n, List.getD_cons_succ, Nat.pow_succ]
    rw [Nat.mul_add, Nat.add_assoc]
    congr 2
    rw [← Nat.mul_assoc, Nat.mul_comm 256, Nat.mul_assoc, Nat.mul_comm 256]

theorem fld_eq (b : List Byte) (off : Nat) : ∀ n, fld b off n = bytesVal b off n
  | 0 => by simp [fld, bytesVal, le]
  | n + 1 => by
    have ih := fld_eq b off n
    unfold fld at ih ⊢
    rw [le_take_succ, ih, bytesVal]
    congr 2
    simp [List.getD_eq_getElem?_getD, List.getElem?_drop]

theorem un_eq (b : List Byte) (name : String) (off len : Nat) : un b off len = Member.val b ⟨name, off, len, .unsigned⟩ := by
  unfold un Member.val
  rw [fld_eq]

theorem sg_eq (b : List Byte) (name : String) (off len : Nat) : sg b off len = Member.val b ⟨name, off, len, .signed⟩ := by
  unfold sg Member.val
  rw [fld_eq]

theorem ident_eq (b : List Byte) (name : String) (off : Nat) : ident b off = Member.val b ⟨name, off, 4, .user⟩ := by
  unfold ident Member.val
  rw [fld_eq]

theorem val_un (b : List Byte) (name : String) (off len : Nat) : Member.val b ⟨name, off, len, .unsigned⟩ = un b off len :=
  (un_eq b name off len).symm

theorem val_sg (b : List Byte) (name : String) (off len : Nat) : Member.val b ⟨name, off, len, .signed⟩ = sg b off len :=
  (sg_eq b name off len).symm

theorem val_id (b : List Byte) (name : String) (off : Nat) : Member.val b ⟨name, off, 4, .user⟩ = ident b off :=
  (ident_eq b name off).symm

/-- a member as it is shown -/
def shownAs (b : List Byte) (m : Member) : F := ⟨m.name, m.val b⟩

/-- the member that says which signal it is -/
def mSigno : Member := ⟨"si_signo", 0, 4, .signed⟩
/-- the member that says why the signal was sent -/
def mCode : Member := ⟨"si_code", 8, 4, .signed⟩
/-- the error -/
def mErrno : Member := ⟨"si_errno", 4, 4, .unsigned⟩
/-- the value sent along with a queued signal -/
def mPtr (w : Nat) : Member := if w = 8 then ⟨"si_ptr", 24, 8, .unsigned⟩ else ⟨"si_ptr", 20, 4, .unsigned⟩

theorem signo_eq (b : List Byte) : signo b = mSigno.val b := sg_eq b _ 0 4
theorem code_eq (b : List Byte) : code b = mCode.val b := sg_eq b _ 8 4

theorem source_eq (w : Nat) (b : List Byte) (hw : w = 4 ∨ w = 8) : source w b = (members w .kill).map (shownAs b) := by
  rcases hw with rfl | rfl
  · simp [source, members, members32, shownAs, base, val_un, val_sg, val_id]
  · simp [source, members, members64, shownAs, base, val_un, val_sg, val_id]

theorem sigval_eq (w : Nat) (b : List Byte) (hw : w = 4 ∨ w = 8) : source w b ++ sigval w b = (members w .rt).map (shownAs b) := by
  rcases hw with rfl | rfl
  · simp [source, sigval, members, members32, shownAs, base, val_un, val_sg, val_id]
  · simp [source, sigval, members, members64, shownAs, base, val_un, val_sg, val_id]

theorem ptr_eq (w : Nat) (b : List Byte) (hw : w = 4 ∨ w = 8) : (ptr w b : Int) = (mPtr w).val b := by
  rcases hw with rfl | rfl
  · simp [ptr, base, mPtr, Member.val, fld_eq]
  · simp [ptr, base, mPtr, Member.val, fld_eq]

theorem errno_iff (b : List Byte) : errno b ≠ 0 ↔ mErrno.val b ≠ 0 := by
  have hlt : ∀ n, bytesVal b 4 n < 256 ^ n := by
    intro n
    induction n with
    | zero => simp [bytesVal]
    | succ n ih =>
      rw [bytesVal, Nat.pow_succ]
      have : (b.getD (4 + n) 0).val ≤ 255 := by have := (b.getD (4 + n) 0).isLt; omega
      have : (b.getD (4 + n) 0).val * 256 ^ n ≤ 255 * 256 ^ n := Nat.mul_le_mul_right _ this
      omega
  have h4 := hlt 4
  unfold errno sg mErrno Member.val
  rw [fld_eq]
  simp only
  split <;> omega

/-! ### C91 -/

/-- the codes of the kernel for which the members shown are those that the kernel sets: all codes of users, timers and files, and the
codes that are specific to the signal -/
def Known (sig code : Int) : Prop := code ≤ 0 ∨ (1 ≤ code ∧ code ≤ ownLimit sig)

/-- what is shown before the members that depend on the signal -/
def headOf (b : List Byte) : List F :=
  [shownAs b mSigno, shownAs b mCode] ++ (if mErrno.val b ≠ 0 then [shownAs b mErrno] else [])

theorem printsiginfo_head (w : Nat) (b : List Byte) (h0 : mSigno.val b ≠ 0) :
    printsiginfo w b = headOf b ++ (if mCode.val b ≤ 0 then fromUser w b else fromKernel w b) := by
  have he : (fld b 4 4 : Int) = mErrno.val b := un_eq b "si_errno" 4 4
  have hn : mErrno.name = "si_errno" := rfl
  have hi : info w b = (if mErrno.val b ≠ 0 then [shownAs b mErrno] else []) ++
      (if mCode.val b ≤ 0 then fromUser w b else fromKernel w b) := by
    unfold info
    rw [code_eq]
    by_cases h : mErrno.val b = 0
    · rw [if_neg (show ¬ errno b ≠ 0 from fun hh => (errno_iff b).mp hh h), if_neg (show ¬ mErrno.val b ≠ 0 from fun hh => hh h)]
    · rw [if_pos ((errno_iff b).mpr h), if_pos (show mErrno.val b ≠ 0 from h), he, shownAs, hn]
  unfold printsiginfo headOf
  rw [if_pos (by rwa [signo_eq]), hi, signo_eq, code_eq, shownAs.eq_def b mSigno, shownAs.eq_def b mCode]
  rw [List.append_assoc, List.cons_append, List.cons_append, List.nil_append]
  rw [show mSigno.name = "si_signo" by rfl, show mCode.name = "si_code" by rfl]

theorem layout_zero (s : Int) : layout s 0 = .kill := by simp [layout]
theorem layout_timer (s : Int) : layout s (-2) = .timer := by simp [layout]
theorem layout_sigio (s : Int) : layout s (-5) = .poll := by simp [layout]
theorem layout_rt (s c : Int) (h : c < 0) (h2 : c ≠ -2) (h5 : c ≠ -5) : layout s c = .rt := by
  unfold layout
  rw [if_neg (by omega), if_neg h2, if_neg h5, if_pos h]

theorem fromUser_eq (w : Nat) (b : List Byte) (hw : w = 4 ∨ w = 8) (h : code b ≤ 0)
    (ht : code b = -6 → ptr w b = 0) :
    fromUser w b = ((members w (layout (signo b) (code b))).map (shownAs b)).take
      (if layout (signo b) (code b) = .rt ∧ ptr w b = 0 then 2 else 4) := by
  have rtc : ∀ t : List F, source w b ++ t = ((members w .rt).map (shownAs b)).take 2 ++ t := by
    intro t
    rw [source_eq w b hw]
    rcases hw with rfl | rfl <;> rfl
  unfold fromUser
  by_cases c0 : code b = 0
  · rw [if_pos c0, c0, layout_zero, if_neg (by simp), source_eq w b hw]
    rcases hw with rfl | rfl <;> rfl
  · rw [if_neg c0]
    have cl : code b < 0 := by omega
    by_cases c6 : code b = -6
    · rw [if_pos c6, layout_rt _ _ cl (by omega) (by omega), if_pos ⟨rfl, ht c6⟩]
      have := rtc []
      rwa [List.append_nil, List.append_nil] at this
    · rw [if_neg c6]
      by_cases c2 : code b = -2
      · rw [if_pos c2, c2, layout_timer, if_neg (by simp)]
        rcases hw with rfl | rfl
        · simp [sigval, members, members32, shownAs, base, val_un, val_sg]
        · simp [sigval, members, members64, shownAs, base, val_un, val_sg]
      · rw [if_neg c2]
        by_cases c5 : code b = -5
        · rw [if_pos c5, c5, layout_sigio, if_neg (by simp)]
          rcases hw with rfl | rfl
          · simp [members, members32, shownAs, base, val_sg]
          · simp [members, members64, shownAs, base, val_sg]
        · rw [if_neg c5, layout_rt _ _ cl c2 c5]
          by_cases hp : ptr w b = 0
          · rw [if_neg (show ¬ ptr w b ≠ 0 from fun hh => hh hp), if_pos ⟨rfl, hp⟩, rtc, List.append_nil]
          · rw [if_pos (show ptr w b ≠ 0 from hp), if_neg (show ¬ (Layout.rt = .rt ∧ ptr w b = 0) from fun hh => hp hh.2), sigval_eq w b hw]
            rcases hw with rfl | rfl <;> rfl

theorem limits (sig : Int) (h : 1 ≤ ownLimit sig) :
    sig = 4 ∨ sig = 8 ∨ sig = 11 ∨ sig = 7 ∨ sig = 5 ∨ sig = 17 ∨ sig = 29 ∨ sig = 31 := by
  unfold ownLimit at h
  split at h <;> first | omega | simp

theorem fromKernel_eq (w : Nat) (b : List Byte) (hw : w = 4 ∨ w = 8) (h1 : 1 ≤ code b) (h2 : code b ≤ ownLimit (signo b)) :
    fromKernel w b = (members w (layout (signo b) (code b))).map (shownAs b) := by
  have hs := limits (signo b) (by omega)
  have hlim : code b < 0x80 := by
    have : ownLimit (signo b) ≤ 15 := by
      rcases hs with h | h | h | h | h | h | h | h <;> rw [h] <;> decide
    omega
  have haddr : ∀ l : Layout, (l = .fault ∨ l = .faultMceerr ∨ l = .faultBnderr ∨ l = .faultPkuerr ∨ l = .faultPerf) →
      (members w l).map (shownAs b) = addrF w b :: ((members w l).drop 1).map (shownAs b) := by
    intro l hl
    rcases hw with rfl | rfl
    · rcases hl with rfl | rfl | rfl | rfl | rfl <;> simp [members, members32, addrF, base, shownAs, val_un, val_sg, val_id]
    · rcases hl with rfl | rfl | rfl | rfl | rfl <;> simp [members, members64, addrF, base, shownAs, val_un, val_sg, val_id]
  unfold fromKernel layout
  rw [if_pos (show 0 < code b ∧ code b < 0x80 from ⟨by omega, hlim⟩), if_pos h2]
  generalize hsb : signo b = s at *
  generalize hcb : code b = c at *
  rcases hs with rfl | rfl | rfl | rfl | rfl | rfl | rfl | rfl
  · simp only [Int.reduceEq, if_false, if_true, false_and]
    rw [haddr .fault (by simp)]
    rcases hw with rfl | rfl <;> rfl
  · simp only [Int.reduceEq, if_false, if_true, false_and]
    rw [haddr .fault (by simp)]
    rcases hw with rfl | rfl <;> rfl
  · simp only [Int.reduceEq, if_false, if_true, false_and, true_and]
    unfold segvMore
    rw [hcb]
    by_cases c3 : c = 3
    · simp only [c3, Int.reduceEq, if_false, if_true]
      rw [haddr .faultBnderr (by simp)]
      rcases hw with rfl | rfl
      · simp [members, members32, shownAs, base, val_un, val_sg, val_id]
      · simp [members, members64, shownAs, base, val_un, val_sg, val_id]
    · by_cases c4 : c = 4
      · simp only [c4, Int.reduceEq, if_false, if_true]
        rw [haddr .faultPkuerr (by simp)]
        rcases hw with rfl | rfl
        · simp [members, members32, shownAs, base, val_un, val_sg, val_id]
        · simp [members, members64, shownAs, base, val_un, val_sg, val_id]
      · simp only [c3, c4, if_false]
        rw [haddr .fault (by simp)]
        rcases hw with rfl | rfl <;> rfl
  · simp only [Int.reduceEq, if_false, if_true, false_and, true_and]
    unfold busMore
    rw [hcb]
    by_cases c4 : 4 ≤ c ∧ c ≤ 5
    · rw [if_pos c4, if_pos (by omega), haddr .faultMceerr (by simp)]
      rcases hw with rfl | rfl
      · simp [members, members32, shownAs, base, val_un, val_sg, val_id]
      · simp [members, members64, shownAs, base, val_un, val_sg, val_id]
    · rw [if_neg c4, if_neg (by omega), haddr .fault (by simp)]
      rcases hw with rfl | rfl <;> rfl
  · simp only [Int.reduceEq, if_false, if_true, false_and, true_and]
    unfold trapMore
    rw [hcb]
    by_cases c6 : c = 6
    · rw [if_pos c6, if_pos c6, haddr .faultPerf (by simp)]
      rcases hw with rfl | rfl
      · simp [members, members32, shownAs, base, val_un, val_sg, val_id]
      · simp [members, members64, shownAs, base, val_un, val_sg, val_id]
    · rw [if_neg c6, if_neg c6, haddr .fault (by simp)]
      rcases hw with rfl | rfl <;> rfl
  · simp only [Int.reduceEq, if_false, if_true, false_and]
    rcases hw with rfl | rfl
    · simp [source, members, members32, shownAs, base, val_un, val_sg, val_id]
    · simp [source, members, members64, shownAs, base, val_un, val_sg, val_id]
  · simp only [Int.reduceEq, if_false, if_true, false_and]
    have : ownLimit 29 = 6 := rfl
    rw [if_pos (by omega)]
    rcases hw with rfl | rfl
    · simp [members, members32, shownAs, base, val_un, val_sg, val_id]
    · simp [members, members64, shownAs, base, val_un, val_sg, val_id]
  · simp only [Int.reduceEq, if_false, if_true, false_and]
    rcases hw with rfl | rfl
    · simp [members, members32, shownAs, base, val_un, val_sg, val_id]
    · simp [members, members64, shownAs, base, val_un, val_sg, val_id]

/-- The signal, its code and, unless it is 0, the error are shown, and then the members that the kernel sets for that signal and code, with their
values: for all codes of users, timers and files (a signal of tkill must carry no value, as the kernel sends it), and for the codes specific
to the signal.  The value of a queued signal is left out only if it is 0.  What is missing: `poll_as_source`, `event_as_addr`,
`kernel_as_addr`, `tkill_value`. -/
theorem siginfo_shown_partial (w : Nat) (b : List Byte) (hw : w = 4 ∨ w = 8) (h0 : mSigno.val b ≠ 0)
    (hk : Known (mSigno.val b) (mCode.val b)) (ht : mCode.val b = -6 → (mPtr w).val b = 0) :
    printsiginfo w b = headOf b ++
      (if layout (mSigno.val b) (mCode.val b) = .rt ∧ (mPtr w).val b = 0 then (members w .kill).map (shownAs b)
        else (members w (layout (mSigno.val b) (mCode.val b))).map (shownAs b)) := by
  rw [printsiginfo_head w b h0]
  have hp := ptr_eq w b hw
  have hp0 : (mPtr w).val b = 0 ↔ ptr w b = 0 := by omega
  congr 1
  rw [← signo_eq, ← code_eq] at *
  by_cases h : code b ≤ 0
  · rw [if_pos h, fromUser_eq w b hw h (fun hc => hp0.mp (ht hc))]
    by_cases hr : layout (signo b) (code b) = .rt ∧ ptr w b = 0
    · rw [if_pos hr, if_pos ⟨hr.1, hp0.mpr hr.2⟩, hr.1]
      rcases hw with rfl | rfl <;> rfl
    · rw [if_neg hr, if_neg (fun hh => hr ⟨hh.1, hp0.mp hh.2⟩), List.take_of_length_le]
      rw [List.length_map]
      have hl : layout (signo b) (code b) = .timer ∨ layout (signo b) (code b) = .poll ∨ layout (signo b) (code b) = .rt ∨
          layout (signo b) (code b) = .kill := by
        unfold layout
        rw [if_neg (by omega)]
        split
        · simp
        · split
          · simp
          · split <;> simp
      rcases hl with hl | hl | hl | hl <;> rw [hl] <;> rcases hw with rfl | rfl <;> decide
  · rw [if_neg h]
    have hk' : 1 ≤ code b ∧ code b ≤ ownLimit (signo b) := by
      rcases hk with hk | hk
      · omega
      · exact hk
    rw [fromKernel_eq w b hw hk'.1 hk'.2, if_neg]
    intro hr
    have := hr.1
    unfold layout at this
    have hs := limits (signo b) (by omega)
    have hlim : ownLimit (signo b) ≤ 15 := by
      rcases hs with h | h | h | h | h | h | h | h <;> rw [h] <;> decide
    rw [if_pos (by omega), if_pos hk'.2] at this
    repeat' split at this
    all_goals cases this

/-- A structure without a signal is shown as empty. -/
theorem siginfo_none (w : Nat) (b : List Byte) (h : mSigno.val b = 0) : printsiginfo w b = [] := by
  unfold printsiginfo
  rw [if_neg]
  rw [signo_eq, h]
  simp

/-- Signals that have no codes of their own, with the codes of the kernel that say nothing about a file: the sender is shown unless it is 0, and
a value if there is one. -/
theorem siginfo_other (w : Nat) (b : List Byte) (hw : w = 4 ∨ w = 8) (h0 : mSigno.val b ≠ 0) (hl : ownLimit (mSigno.val b) = 0)
    (hc : 6 < mCode.val b) :
    layout (mSigno.val b) (mCode.val b) = .kill ∧
      ((mPtr w).val b = 0 →
        (printsiginfo w b = headOf b ++ (members w .kill).map (shownAs b) ∨
          (printsiginfo w b = headOf b ∧ ∀ m ∈ members w .kill, m.val b = 0))) := by
  constructor
  · unfold layout
    split
    · rw [if_neg (by omega), if_neg (by omega)]
    · rw [if_neg (by omega), if_neg (by omega), if_neg (by omega)]
  · intro hp
    have hp1 := ptr_eq w b hw
    have hp0 : ptr w b = 0 := by omega
    rw [printsiginfo_head w b h0, if_neg (by omega)]
    have hk : fromKernel w b = if fld b (base w) 4 ≠ 0 ∨ fld b (base w + 4) 4 ≠ 0 then source w b else [] := by
      rw [← signo_eq] at hl
      unfold fromKernel
      have hne : ∀ k : Int, ownLimit k ≠ 0 → signo b ≠ k := fun k hk he => hk (he ▸ hl)
      rw [if_neg (hne 17 (by decide)), if_neg (hne 4 (by decide)), if_neg (hne 8 (by decide)), if_neg (hne 7 (by decide)),
        if_neg (hne 11 (by decide)), if_neg (hne 5 (by decide)), if_neg (hne 29 (by decide)), if_neg (hne 31 (by decide)),
        if_neg (show ¬ ptr w b ≠ 0 from fun h => h hp0), List.append_nil]
    rw [hk]
    by_cases hz : fld b (base w) 4 ≠ 0 ∨ fld b (base w + 4) 4 ≠ 0
    · rw [if_pos hz, source_eq w b hw]
      exact Or.inl rfl
    · rw [if_neg hz, List.append_nil]
      right
      refine ⟨rfl, ?_⟩
      have hz1 : fld b (base w) 4 = 0 := by omega
      have hz2 : fld b (base w + 4) 4 = 0 := by omega
      rw [fld_eq] at hz1 hz2
      rcases hw with rfl | rfl
      · intro m hm
        simp [members, members32] at hm
        rcases hm with rfl | rfl
        · simp [Member.val, show bytesVal b 12 4 = 0 from hz1]
        · simp [Member.val, show bytesVal b 16 4 = 0 from hz2]
      · intro m hm
        simp [members, members64] at hm
        rcases hm with rfl | rfl
        · simp [Member.val, show bytesVal b 16 4 = 0 from hz1]
        · simp [Member.val, show bytesVal b 20 4 = 0 from hz2]

/-- The structure is shown whenever its 128 bytes can be read. -/
theorem siginfo_at (mem : Nat → Option Byte) (w a : Nat) (b : List Byte) (h0 : a ≠ 0) (h : moven mem a 128 = some b) :
    printsiginfoAt mem true w a = some (printsiginfo w b) := by
  unfold printsiginfoAt fetch
  rw [if_neg (by simp [h0]), h]
  rfl

theorem siginfo_at_addr (mem : Nat → Option Byte) (vb : Bool) (w a : Nat) (h : a = 0 ∨ vb = false ∨ moven mem a 128 = none) :
    printsiginfoAt mem vb w a = none := by
  unfold printsiginfoAt fetch
  split
  · rfl
  · rename_i hn
    rcases h with h | h | h
    · exact absurd (Or.inl h) hn
    · exact absurd (Or.inr h) hn
    · rw [h]; rfl

end Strace.Sig
