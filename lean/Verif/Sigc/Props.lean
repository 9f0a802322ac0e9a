import Verif.Sigc.Spec
import Verif.Ops.Props
/-!
# The calls about signals show what they do
-/
namespace Strace.Sigc
open Strace.Prctl (Mem Phase umoven number toInt)
open Strace.Ops (Call memAt)
open Strace.Sigc.Spec

/-- What is shown when a call begins; sigsuspend has three arguments on i386. -/
def early (w : Nat) (s : Sys) (c : Call) : List Tok := enter w 3 s c

/-- What is shown when a call ends. -/
def late (w : Nat) (s : Sys) (c : Call) : List Tok := exit w s c

/-- Memory consists of bytes. -/
def Bytes (m : Mem) : Prop := ∀ a b, m a = some b → b < 256

/-! ### Reading memory -/

theorem le_eq (m : Mem) (a : Nat) : ∀ n, Strace.Ops.Spec.le m a n = le m a n
  | 0 => rfl
  | n + 1 => by
    show Strace.Ops.Spec.le m a n + _ = le m a n + _
    rw [le_eq m a n]

theorem le_lt {m : Mem} (h : Bytes m) (a : Nat) : ∀ n, le m a n < 256 ^ n
  | 0 => by simp [le]
  | n + 1 => by
    have h1 := le_lt h a n
    have h2 : (m (a + n)).getD 0 < 256 := by
      cases hm : m (a + n) with
      | none => simp
      | some b => exact h _ _ hm
    show le m a n + 256 ^ n * (m (a + n)).getD 0 < 256 ^ (n + 1)
    rw [Nat.pow_succ]
    calc le m a n + 256 ^ n * (m (a + n)).getD 0 < 256 ^ n + 256 ^ n * (m (a + n)).getD 0 := by omega
      _ = 256 ^ n * ((m (a + n)).getD 0 + 1) := by rw [Nat.mul_add, Nat.mul_one, Nat.add_comm]
      _ ≤ 256 ^ n * 256 := Nat.mul_le_mul_left _ h2

/-- The fetch gives the bytes when they are to be shown and can be read. -/
theorem fetch_rd {c : Call} {i n : Nat} (h : (c.arg i ≠ 0 ∧ c.verbose = true) ∧ Readable c.before (c.arg i) n) :
    fetch .entering c i n = umoven c.before (c.arg i) n ∧ ∃ l, umoven c.before (c.arg i) n = some l := by
  refine ⟨?_, Strace.Ops.umoven_isSome h.2⟩
  unfold fetch
  rw [if_neg (by simp [h.1])]
  rfl

theorem fetch_rd_none {c : Call} {i n : Nat} (h : ¬ ((c.arg i ≠ 0 ∧ c.verbose = true) ∧ Readable c.before (c.arg i) n)) :
    fetch .entering c i n = none := by
  unfold fetch
  split
  · rfl
  · rename_i hc
    refine Strace.Ops.umoven_isNone fun hr => h ⟨⟨fun h0 => hc (Or.inl h0), ?_⟩, hr⟩
    cases hv : c.verbose
    · exact absurd (Or.inr (Or.inl hv)) hc
    · rfl

theorem fetch_wr {c : Call} {i n : Nat}
    (h : (c.arg i ≠ 0 ∧ c.verbose = true ∧ c.failed = false) ∧ Readable c.after (c.arg i) n) :
    fetch .exiting c i n = umoven c.after (c.arg i) n ∧ ∃ l, umoven c.after (c.arg i) n = some l := by
  refine ⟨?_, Strace.Ops.umoven_isSome h.2⟩
  unfold fetch
  rw [if_neg (by simp [h.1])]
  rfl

theorem fetch_wr_none {c : Call} {i n : Nat}
    (h : ¬ ((c.arg i ≠ 0 ∧ c.verbose = true ∧ c.failed = false) ∧ Readable c.after (c.arg i) n)) :
    fetch .exiting c i n = none := by
  unfold fetch
  split
  · rfl
  · rename_i hc
    refine Strace.Ops.umoven_isNone fun hr => h ⟨⟨fun h0 => hc (Or.inl h0), ?_, ?_⟩, hr⟩
    · cases hv : c.verbose
      · exact absurd (Or.inr (Or.inl hv)) hc
      · rfl
    · cases hv : c.failed
      · rfl
      · exact absurd (Or.inr (Or.inr ⟨rfl, hv⟩)) hc

/-- A part of the bytes that were read. -/
theorem part {m : Mem} {a n : Nat} {l : List Nat} (h : umoven m a n = some l) (j k : Nat) (hj : j + k ≤ n) :
    number ((l.drop j).take k) = le m (a + j) k := by
  have h1 : umoven m a (j + (n - j)) = some l := by rw [show j + (n - j) = n by omega]; exact h
  have h2 := (Strace.Prctl.umoven_take h1).2
  have h3 : umoven m (a + j) (k + (n - j - k)) = some (l.drop j) := by
    rw [show k + (n - j - k) = n - j by omega]; exact h2
  have h4 := (Strace.Prctl.umoven_take h3).1
  rw [Strace.Ops.number_le h4, le_eq]

theorem whole {m : Mem} {a n : Nat} {l : List Nat} (h : umoven m a n = some l) : number l = le m a n := by
  rw [Strace.Ops.number_le h, le_eq]

/-! ### What the parts show -/

theorem sigset_rd {c : Call} {i len min : Nat} (h1 : min ≤ len) (h2 : len ≤ 8) :
    At c.before c (c.arg i ≠ 0 ∧ c.verbose = true) i len (· = .set i (le c.before (c.arg i) len)) (sigset .entering c i len min) := by
  unfold sigset
  rw [if_neg (by omega)]
  refine ⟨fun h => ?_, fun h => ?_⟩
  · obtain ⟨e, l, hl⟩ := fetch_rd h
    rw [e, hl]
    show Tok.set i (number l) = _
    rw [whole hl]
  · rw [fetch_rd_none h]; rfl

theorem sigset_wr {c : Call} {i len min : Nat} (h1 : min ≤ len) (h2 : len ≤ 8) :
    At c.after c (c.arg i ≠ 0 ∧ c.verbose = true ∧ c.failed = false) i len (· = .set i (le c.after (c.arg i) len))
      (sigset .exiting c i len min) := by
  unfold sigset
  rw [if_neg (by omega)]
  refine ⟨fun h => ?_, fun h => ?_⟩
  · obtain ⟨e, l, hl⟩ := fetch_wr h
    rw [e, hl]
    show Tok.set i (number l) = _
    rw [whole hl]
  · rw [fetch_wr_none h]; rfl

theorem oldMask_le {w : Nat} (hw : w = 4 ∨ w = 8) {m : Mem} (h : Bytes m) (a : Nat) : oldMask w (le m a w) = le m a w := by
  have := le_lt h a w
  unfold oldMask
  rcases hw with rfl | rfl
  · rw [Nat.mod_eq_of_lt (a := le m a 4) (by omega), Nat.mod_eq_of_lt this]
  · rw [Nat.mod_eq_of_lt (a := le m a 8) (by omega), Nat.mod_eq_of_lt this]

theorem oldAction_rd {w : Nat} (hw : w = 4 ∨ w = 8) {c : Call} (hb : Bytes c.before) {i : Nat} :
    At c.before c (c.arg i ≠ 0 ∧ c.verbose = true) i (4 * w) (OldAction w c.before (c.arg i) i) (oldAction .entering w c i) := by
  unfold oldAction
  refine ⟨fun h => ?_, fun h => ?_⟩
  · obtain ⟨e, l, hl⟩ := fetch_rd h
    rw [e, hl]
    have p0 := part hl 0 w (by omega)
    have p1 := part hl w w (by omega)
    have p2 := part hl (2 * w) w (by omega)
    have p3 := part hl (3 * w) w (by omega)
    rw [List.drop_zero, Nat.add_zero] at p0
    simp only [OldAction, p0, p1, p2, p3, oldMask_le hw hb]
  · rw [fetch_rd_none h]; rfl

theorem oldAction_wr {w : Nat} (hw : w = 4 ∨ w = 8) {c : Call} (hb : Bytes c.after) {i : Nat} :
    At c.after c (c.arg i ≠ 0 ∧ c.verbose = true ∧ c.failed = false) i (4 * w) (OldAction w c.after (c.arg i) i)
      (oldAction .exiting w c i) := by
  unfold oldAction
  refine ⟨fun h => ?_, fun h => ?_⟩
  · obtain ⟨e, l, hl⟩ := fetch_wr h
    rw [e, hl]
    have p0 := part hl 0 w (by omega)
    have p1 := part hl w w (by omega)
    have p2 := part hl (2 * w) w (by omega)
    have p3 := part hl (3 * w) w (by omega)
    rw [List.drop_zero, Nat.add_zero] at p0
    simp only [OldAction, p0, p1, p2, p3, oldMask_le hw hb]
  · rw [fetch_wr_none h]; rfl

theorem newAction_rd {w : Nat} {c : Call} {i : Nat} :
    At c.before c (c.arg i ≠ 0 ∧ c.verbose = true) i (3 * w + 64) (NewAction w c.before (c.arg i) i)
      (newAction .entering w c i) := by
  unfold newAction newSize
  refine ⟨fun h => ?_, fun h => ?_⟩
  · obtain ⟨e, l, hl⟩ := fetch_rd h
    rw [e, hl]
    have p0 := part hl 0 w (by omega)
    have p1 := part hl w w (by omega)
    have p2 := part hl (2 * w) w (by omega)
    have p3 := part hl (3 * w) 8 (by omega)
    rw [List.drop_zero, Nat.add_zero] at p0
    simp only [NewAction, p0, p1, p2, p3]
  · rw [fetch_rd_none h]; rfl

theorem newAction_wr {w : Nat} {c : Call} {i : Nat} :
    At c.after c (c.arg i ≠ 0 ∧ c.verbose = true ∧ c.failed = false) i (3 * w + 64) (NewAction w c.after (c.arg i) i)
      (newAction .exiting w c i) := by
  unfold newAction newSize
  refine ⟨fun h => ?_, fun h => ?_⟩
  · obtain ⟨e, l, hl⟩ := fetch_wr h
    rw [e, hl]
    have p0 := part hl 0 w (by omega)
    have p1 := part hl w w (by omega)
    have p2 := part hl (2 * w) w (by omega)
    have p3 := part hl (3 * w) 8 (by omega)
    rw [List.drop_zero, Nat.add_zero] at p0
    simp only [NewAction, p0, p1, p2, p3]
  · rw [fetch_wr_none h]; rfl

theorem info_rd {c : Call} {i : Nat} :
    At c.before c (c.arg i ≠ 0 ∧ c.verbose = true) i 128
      (fun t => ∃ l, t = .info i l ∧ l.length = 128 ∧ BytesAt c.before (c.arg i) l) (info .entering c i) := by
  unfold info
  refine ⟨fun h => ?_, fun h => ?_⟩
  · obtain ⟨e, l, hl⟩ := fetch_rd h
    rw [e, hl]
    exact ⟨l, rfl, Strace.Ops.umoven_some hl⟩
  · rw [fetch_rd_none h]; rfl

theorem info_wr {c : Call} {i : Nat} :
    At c.after c (c.arg i ≠ 0 ∧ c.verbose = true ∧ c.failed = false) i 128
      (fun t => ∃ l, t = .info i l ∧ l.length = 128 ∧ BytesAt c.after (c.arg i) l) (info .exiting c i) := by
  unfold info
  refine ⟨fun h => ?_, fun h => ?_⟩
  · obtain ⟨e, l, hl⟩ := fetch_wr h
    rw [e, hl]
    exact ⟨l, rfl, Strace.Ops.umoven_some hl⟩
  · rw [fetch_wr_none h]; rfl

theorem timespec_rd {c : Call} {i n : Nat} :
    At c.before c (c.arg i ≠ 0 ∧ c.verbose = true) i n
      (fun t => ∃ l, t = .time i l ∧ l.length = n ∧ BytesAt c.before (c.arg i) l) (timespec .entering c i n) := by
  unfold timespec
  refine ⟨fun h => ?_, fun h => ?_⟩
  · obtain ⟨e, l, hl⟩ := fetch_rd h
    rw [e, hl]
    exact ⟨l, rfl, Strace.Ops.umoven_some hl⟩
  · rw [fetch_rd_none h]; rfl

theorem oldMask_same {w : Nat} (hw : w = 4 ∨ w = 8) (x : Nat) : SameSet (8 * w) (oldMask w x) x := by
  intro k
  unfold oldMask
  rcases hw with rfl | rfl
  · rw [show (256 : Nat) ^ 4 = 2 ^ 32 by decide, Nat.testBit_mod_two_pow, Nat.testBit_mod_two_pow, ← Bool.and_assoc,
      ← Bool.decide_and]
    congr 1
    rw [decide_eq_decide]
    omega
  · rw [show (256 : Nat) ^ 8 = 2 ^ 64 by decide, Nat.testBit_mod_two_pow, Nat.testBit_mod_two_pow, ← Bool.and_assoc,
      ← Bool.decide_and]
    congr 1
    rw [decide_eq_decide]
    omega

theorem oldMask_same32 {w : Nat} (hw : w = 4 ∨ w = 8) (x : Nat) : SameSet 32 (oldMask w (x % 2 ^ 32)) x := by
  intro k
  rw [oldMask_same hw _ k, Nat.testBit_mod_two_pow, ← Bool.and_assoc, ← Bool.decide_and]
  congr 1
  rw [decide_eq_decide]
  omega

theorem int_low (c : Call) (i : Nat) : int c i = .int i (signed (c.arg i)) := rfl

/-! ### What is shown -/

theorem low_int {act w : Nat} {c : Call} {E L : List Tok} {i : Nat} (h : int c i ∈ E ++ L) : Shown act w c E L (.low i) := Or.inr h
theorem low_uint {act w : Nat} {c : Call} {E L : List Tok} {i : Nat} (h : uint c i ∈ E ++ L) : Shown act w c E L (.low i) := Or.inl h
theorem num_long {act w : Nat} {c : Call} {E L : List Tok} {i : Nat} (h : long c i ∈ E ++ L) : Shown act w c E L (.num i) := Or.inl h
theorem num_addr {act w : Nat} {c : Call} {E L : List Tok} {i : Nat} (h : addr c i ∈ E ++ L) : Shown act w c E L (.num i) := Or.inr h

/-- One use, by the token that shows it. -/
macro "use" : tactic => `(tactic| first
  | (refine low_int ?_; simp; done)
  | (refine low_uint ?_; simp; done)
  | (refine num_long ?_; simp; done)
  | (refine num_addr ?_; simp; done))

/-- **C126** Every call about signals shows what it does with each of its arguments: the numbers, the sets of signals, actions,
siginfo and times that it reads as they were when it began, those that it fills as they were when it ended, and addresses of what
cannot be read or is not to be shown.  Partial: of an action of rt_sigaction, `3 * w + 64` bytes have to be readable, where the
kernel looks at `3 * w + 8`. -/
theorem shown_partial (w : Nat) (hw : w = 4 ∨ w = 8) (s : Sys) (c : Call) (hb : Bytes c.before) (ha : Bytes c.after) :
    ∀ u ∈ uses w s c.arg, Shown (3 * w + 64) w c (early w s c) (late w s c) u := by
  have w8 : w ≤ 8 := by omega
  have w1 : 1 ≤ w := by omega
  intro u hu
  cases s with
  | kill =>
    simp only [uses, List.mem_cons, List.not_mem_nil, or_false] at hu
    rcases hu with rfl | rfl <;> simp only [early, late, enter, exit] <;> use
  | tkill =>
    simp only [uses, List.mem_cons, List.not_mem_nil, or_false] at hu
    rcases hu with rfl | rfl <;> simp only [early, late, enter, exit] <;> use
  | tgkill =>
    simp only [uses, List.mem_cons, List.not_mem_nil, or_false] at hu
    rcases hu with rfl | rfl | rfl <;> simp only [early, late, enter, exit] <;> use
  | ssetmask =>
    simp only [uses, List.mem_cons, List.not_mem_nil, or_false] at hu
    subst hu
    exact ⟨_, by simp only [early, enter]; exact List.mem_cons_self .., oldMask_same32 hw _⟩
  | sgetmask => simp [uses] at hu
  | signal =>
    simp only [uses, List.mem_cons, List.not_mem_nil, or_false] at hu
    rcases hu with rfl | rfl <;> simp only [early, late, enter, exit] <;> use
  | sigaction =>
    simp only [uses, List.mem_cons, List.not_mem_nil, or_false] at hu
    rcases hu with rfl | rfl | rfl <;> simp only [early, late, enter, exit]
    · use
    · exact ⟨oldAction .entering w c 1, by simp, oldAction_rd hw hb⟩
    · exact ⟨oldAction .exiting w c 2, by simp, oldAction_wr hw ha⟩
  | sigsuspend =>
    simp only [uses, List.mem_cons, List.not_mem_nil, or_false] at hu
    subst hu
    exact ⟨_, by simp only [early, enter]; exact List.mem_cons_self .., oldMask_same hw _⟩
  | sigprocmask =>
    simp only [uses, List.mem_cons, List.not_mem_nil, or_false] at hu
    rcases hu with rfl | rfl | rfl <;> simp only [early, late, enter, exit]
    · use
    · exact ⟨sigset .entering c 1 w w, by simp, sigset_rd (Nat.le_refl _) w8⟩
    · exact ⟨sigset .exiting c 2 w w, by simp, sigset_wr (Nat.le_refl _) w8⟩
  | sigpending =>
    simp only [uses, List.mem_cons, List.not_mem_nil, or_false] at hu
    subst hu
    simp only [early, late, enter, exit]
    exact ⟨sigset .exiting c 0 w w, by simp, sigset_wr (Nat.le_refl _) w8⟩
  | rtSigprocmask =>
    simp only [early, late, enter, exit]
    by_cases h8 : c.arg 3 = 8
    · simp only [uses, h8, if_true, List.cons_append, List.nil_append, List.mem_cons, List.not_mem_nil, or_false] at hu
      rcases hu with rfl | rfl | rfl | rfl
      · use
      · use
      · exact ⟨sigset .entering c 1 (c.arg 3) w, by simp, by rw [h8]; exact sigset_rd w8 (Nat.le_refl _)⟩
      · exact ⟨sigset .exiting c 2 (c.arg 3) w, by simp, by rw [h8]; exact sigset_wr w8 (Nat.le_refl _)⟩
    · simp only [uses, h8, if_false, List.append_nil, List.mem_cons, List.not_mem_nil, or_false] at hu
      rcases hu with rfl | rfl <;> use
  | rtSigaction =>
    simp only [early, late, enter, exit]
    by_cases h8 : c.arg 3 = 8
    · simp only [uses, h8, if_true, List.cons_append, List.nil_append, List.mem_cons, List.not_mem_nil, or_false] at hu
      rcases hu with rfl | rfl | rfl | rfl
      · use
      · use
      · exact ⟨newAction .entering w c 1, by simp, newAction_rd⟩
      · exact ⟨newAction .exiting w c 2, by simp, newAction_wr⟩
    · simp only [uses, h8, if_false, List.append_nil, List.mem_cons, List.not_mem_nil, or_false] at hu
      rcases hu with rfl | rfl <;> use
  | rtSigpending =>
    simp only [early, late, enter, exit]
    by_cases h8 : 0 < c.arg 1 ∧ c.arg 1 ≤ 8
    · simp only [uses, if_pos h8, List.cons_append, List.nil_append, List.mem_cons, List.not_mem_nil, or_false] at hu
      rcases hu with rfl | rfl
      · use
      · exact ⟨sigset .exiting c 0 (c.arg 1) 1, by simp, sigset_wr h8.1 h8.2⟩
    · simp only [uses, if_neg h8, List.append_nil, List.mem_cons, List.not_mem_nil, or_false] at hu
      subst hu
      use
  | rtSigsuspend =>
    simp only [early, late, enter, exit]
    by_cases h8 : c.arg 1 = 8
    · simp only [uses, h8, if_true, List.cons_append, List.nil_append, List.mem_cons, List.not_mem_nil, or_false] at hu
      rcases hu with rfl | rfl
      · use
      · exact ⟨sigset .entering c 0 (c.arg 1) w, by simp, by rw [h8]; exact sigset_rd w8 (Nat.le_refl _)⟩
    · simp only [uses, h8, if_false, List.append_nil, List.mem_cons, List.not_mem_nil, or_false] at hu
      subst hu
      use
  | rtSigqueueinfo =>
    simp only [uses, List.mem_cons, List.not_mem_nil, or_false] at hu
    rcases hu with rfl | rfl | rfl <;> simp only [early, late, enter, exit]
    · use
    · use
    · exact ⟨info .entering c 2, by simp, info_rd⟩
  | rtTgsigqueueinfo =>
    simp only [uses, List.mem_cons, List.not_mem_nil, or_false] at hu
    rcases hu with rfl | rfl | rfl | rfl <;> simp only [early, late, enter, exit]
    · use
    · use
    · use
    · exact ⟨info .entering c 3, by simp, info_rd⟩
  | pidfdSendSignal =>
    simp only [uses, List.mem_cons, List.not_mem_nil, or_false] at hu
    rcases hu with rfl | rfl | rfl | rfl <;> simp only [early, late, enter, exit]
    · use
    · use
    · exact ⟨info .entering c 2, by simp, info_rd⟩
    · use
  | rtSigtimedwait t =>
    simp only [early, late, enter, exit]
    by_cases hv : c.arg 1 ≠ 0 ∧ c.verbose = true
    · rw [if_neg (not_not_intro hv), if_pos hv]
      by_cases h8 : c.arg 3 = 8
      · simp only [uses, h8, if_true, List.cons_append, List.nil_append, List.mem_cons, List.not_mem_nil, or_false] at hu
        rcases hu with rfl | rfl | rfl | rfl
        · use
        · exact ⟨sigset .entering c 0 (c.arg 3) w, by simp, by rw [h8]; exact sigset_rd w8 (Nat.le_refl _)⟩
        · exact ⟨info .exiting c 1, by simp, info_wr⟩
        · exact ⟨timespec .entering c 2 (timeSize t), by simp, timespec_rd⟩
      · simp only [uses, h8, if_false, List.append_nil, List.mem_cons, List.not_mem_nil, or_false] at hu
        subst hu
        use
    · rw [if_pos hv, if_neg hv]
      by_cases h8 : c.arg 3 = 8
      · simp only [uses, h8, if_true, List.cons_append, List.nil_append, List.mem_cons, List.not_mem_nil, or_false] at hu
        rcases hu with rfl | rfl | rfl | rfl
        · use
        · exact ⟨sigset .entering c 0 (c.arg 3) w, by simp, by rw [h8]; exact sigset_rd w8 (Nat.le_refl _)⟩
        · exact ⟨addr c 1, by simp, fun h => absurd ⟨h.1.1, h.1.2.1⟩ hv, fun _ => rfl⟩
        · exact ⟨timespec .entering c 2 (timeSize t), by simp, timespec_rd⟩
      · simp only [uses, h8, if_false, List.append_nil, List.mem_cons, List.not_mem_nil, or_false] at hu
        subst hu
        use

/-- **C126** The full claim for all calls but rt_sigaction. -/
theorem shown (w : Nat) (hw : w = 4 ∨ w = 8) (s : Sys) (hs : s ≠ .rtSigaction) (c : Call) (hb : Bytes c.before) (ha : Bytes c.after) :
    ∀ u ∈ uses w s c.arg, Shown (actionSize w) w c (early w s c) (late w s c) u := by
  intro u hu
  have h := shown_partial w hw s c hb ha u hu
  cases u with
  | rdNew i =>
    cases s <;> simp [uses] at hu hs <;> (try split at hu) <;> simp at hu
  | wrNew i =>
    cases s <;> simp [uses] at hu hs <;> (try split at hu) <;> simp at hu
  | _ => exact h

/-! ### Order -/

theorem idx_sigset (ph : Phase) (c : Call) (i len m : Nat) : idx (sigset ph c i len m) = some i := by
  unfold sigset; split
  · rfl
  · split <;> rfl
theorem idx_oldAction (ph : Phase) (w : Nat) (c : Call) (i : Nat) : idx (oldAction ph w c i) = some i := by
  unfold oldAction; split <;> rfl
theorem idx_newAction (ph : Phase) (w : Nat) (c : Call) (i : Nat) : idx (newAction ph w c i) = some i := by
  unfold newAction; split <;> rfl
theorem idx_info (ph : Phase) (c : Call) (i : Nat) : idx (info ph c i) = some i := by
  unfold info; split <;> rfl
theorem idx_timespec (ph : Phase) (c : Call) (i n : Nat) : idx (timespec ph c i n) = some i := by
  unfold timespec; split <;> rfl

theorem idx_int (c : Call) (i : Nat) : idx (int c i) = some i := rfl
theorem idx_uint (c : Call) (i : Nat) : idx (uint c i) = some i := rfl
theorem idx_long (c : Call) (i : Nat) : idx (long c i) = some i := rfl
theorem idx_addr (c : Call) (i : Nat) : idx (addr c i) = some i := rfl
theorem idx_sep : idx .sep = none := rfl
theorem idx_set (i v : Nat) : idx (.set i v) = some i := rfl

/-- **C126** All the arguments are shown once, in their order, with a separator between each two. -/
theorem in_order (w : Nat) (s : Sys) (c : Call) :
    (early w s c ++ late w s c).map idx = ((arguments s).map some).intersperse none := by
  cases s with
  | rtSigtimedwait t =>
    by_cases hv : c.arg 1 ≠ 0 ∧ c.verbose = true
    · simp [early, late, enter, exit, arguments, hv, idx_sigset, idx_info, idx_timespec, idx_sep, idx_long]
    · simp only [early, late, enter, exit, if_pos hv, if_neg hv]
      simp [arguments, idx_sigset, idx_timespec, idx_sep, idx_long, idx_addr]
  | _ =>
    simp [early, late, enter, exit, arguments, idx_sigset, idx_oldAction, idx_newAction, idx_info, idx_sep, idx_int,
      idx_uint, idx_long, idx_addr, idx_set]

/-! ### Nothing is shown too early or too late -/

/-- **C126** When a call begins, nothing in memory that it is to fill is shown. -/
theorem not_before (w : Nat) (s : Sys) (c : Call) (t : Tok) (ht : t ∈ early w s c) (i : Nat) (hi : idx t = some i)
    (hf : isFilled s i = true) : fromMemory t = false := by
  cases s with
  | rtSigtimedwait tt =>
    by_cases hv : c.arg 1 ≠ 0 ∧ c.verbose = true
    · simp only [early, enter, if_neg (not_not_intro hv), List.append_nil, List.mem_cons, List.not_mem_nil, or_false] at ht
      rcases ht with rfl | rfl
      · rw [idx_sigset] at hi; cases hi; simp [isFilled] at hf
      · rfl
    · simp only [early, enter, if_pos hv, List.cons_append, List.nil_append, List.mem_cons, List.not_mem_nil, or_false] at ht
      rcases ht with rfl | rfl | rfl | rfl | rfl | rfl | rfl
      · rw [idx_sigset] at hi; cases hi; simp [isFilled] at hf
      · rfl
      · rfl
      · rfl
      · rw [idx_timespec] at hi; cases hi; simp [isFilled] at hf
      · rfl
      · rfl
  | sigaction =>
    simp only [early, enter, List.mem_cons, List.not_mem_nil, or_false] at ht
    rcases ht with rfl | rfl | rfl | rfl
    · rfl
    · rfl
    · rw [idx_oldAction] at hi; cases hi; simp [isFilled] at hf
    · rfl
  | sigprocmask =>
    simp only [early, enter, List.mem_cons, List.not_mem_nil, or_false] at ht
    rcases ht with rfl | rfl | rfl | rfl
    · rfl
    · rfl
    · rw [idx_sigset] at hi; cases hi; simp [isFilled] at hf
    · rfl
  | rtSigprocmask =>
    simp only [early, enter, List.mem_cons, List.not_mem_nil, or_false] at ht
    rcases ht with rfl | rfl | rfl | rfl
    · rfl
    · rfl
    · rw [idx_sigset] at hi; cases hi; simp [isFilled] at hf
    · rfl
  | rtSigaction =>
    simp only [early, enter, List.mem_cons, List.not_mem_nil, or_false] at ht
    rcases ht with rfl | rfl | rfl | rfl
    · rfl
    · rfl
    · rw [idx_newAction] at hi; cases hi; simp [isFilled] at hf
    · rfl
  | sigpending => simp [early, enter] at ht
  | rtSigpending => simp [early, enter] at ht
  | _ => simp [isFilled] at hf

/-- **C126** A call that has failed shows nothing of the memory that it would have filled. -/
theorem failed_shows_addresses (w : Nat) (s : Sys) (c : Call) (hfail : c.failed = true) (t : Tok)
    (ht : t ∈ early w s c ++ late w s c) (i : Nat) (hi : idx t = some i) (hf : isFilled s i = true) :
    t = .addr i (c.arg i) := by
  have hnone : ∀ j n, fetch .exiting c j n = none := by
    intro j n
    unfold fetch
    rw [if_pos (Or.inr (Or.inr ⟨rfl, hfail⟩))]
  have hset : ∀ j len m, sigset .exiting c j len m = .addr j (c.arg j) := by
    intro j len m
    unfold sigset
    rw [hnone]
    split <;> rfl
  have hold : ∀ j, oldAction .exiting w c j = .addr j (c.arg j) := by
    intro j; unfold oldAction; rw [hnone]; rfl
  have hnew : ∀ j, newAction .exiting w c j = .addr j (c.arg j) := by
    intro j; unfold newAction; rw [hnone]; rfl
  have hinfo : ∀ j, info .exiting c j = .addr j (c.arg j) := by
    intro j; unfold info; rw [hnone]; rfl
  cases s with
  | rtSigtimedwait tt =>
    by_cases hv : c.arg 1 ≠ 0 ∧ c.verbose = true
    · simp only [early, late, enter, exit, if_neg (not_not_intro hv), if_pos hv, List.cons_append, List.nil_append,
        List.mem_cons, List.not_mem_nil, or_false] at ht
      rcases ht with rfl | rfl | rfl | rfl | rfl | rfl | rfl
      · rw [idx_sigset] at hi; cases hi; simp [isFilled] at hf
      · cases hi
      · rw [hinfo] at hi ⊢; cases hi; rfl
      · cases hi
      · rw [idx_timespec] at hi; cases hi; simp [isFilled] at hf
      · cases hi
      · cases hi; simp [isFilled] at hf
    · simp only [early, late, enter, exit, if_pos hv, if_neg hv, List.cons_append, List.nil_append, List.append_nil,
        List.mem_cons, List.not_mem_nil, or_false] at ht
      rcases ht with rfl | rfl | rfl | rfl | rfl | rfl | rfl
      · rw [idx_sigset] at hi; cases hi; simp [isFilled] at hf
      · cases hi
      · cases hi; rfl
      · cases hi
      · rw [idx_timespec] at hi; cases hi; simp [isFilled] at hf
      · cases hi
      · cases hi; simp [isFilled] at hf
  | sigaction =>
    simp only [early, late, enter, exit, List.cons_append, List.nil_append, List.mem_cons, List.not_mem_nil, or_false] at ht
    rcases ht with rfl | rfl | rfl | rfl | rfl
    · cases hi; simp [isFilled] at hf
    · cases hi
    · rw [idx_oldAction] at hi; cases hi; simp [isFilled] at hf
    · cases hi
    · rw [hold] at hi ⊢; cases hi; rfl
  | sigprocmask =>
    simp only [early, late, enter, exit, List.cons_append, List.nil_append, List.mem_cons, List.not_mem_nil, or_false] at ht
    rcases ht with rfl | rfl | rfl | rfl | rfl
    · cases hi; simp [isFilled] at hf
    · cases hi
    · rw [idx_sigset] at hi; cases hi; simp [isFilled] at hf
    · cases hi
    · rw [hset] at hi ⊢; cases hi; rfl
  | sigpending =>
    simp only [early, late, enter, exit, List.nil_append, List.mem_cons, List.not_mem_nil, or_false] at ht
    subst ht
    rw [hset] at hi ⊢; cases hi; rfl
  | rtSigprocmask =>
    simp only [early, late, enter, exit, List.cons_append, List.nil_append, List.mem_cons, List.not_mem_nil, or_false] at ht
    rcases ht with rfl | rfl | rfl | rfl | rfl | rfl | rfl
    · cases hi; simp [isFilled] at hf
    · cases hi
    · rw [idx_sigset] at hi; cases hi; simp [isFilled] at hf
    · cases hi
    · rw [hset] at hi ⊢; cases hi; rfl
    · cases hi
    · cases hi; simp [isFilled] at hf
  | rtSigaction =>
    simp only [early, late, enter, exit, List.cons_append, List.nil_append, List.mem_cons, List.not_mem_nil, or_false] at ht
    rcases ht with rfl | rfl | rfl | rfl | rfl | rfl | rfl
    · cases hi; simp [isFilled] at hf
    · cases hi
    · rw [idx_newAction] at hi; cases hi; simp [isFilled] at hf
    · cases hi
    · rw [hnew] at hi ⊢; cases hi; rfl
    · cases hi
    · cases hi; simp [isFilled] at hf
  | rtSigpending =>
    simp only [early, late, enter, exit, List.nil_append, List.mem_cons, List.not_mem_nil, or_false] at ht
    rcases ht with rfl | rfl | rfl
    · rw [hset] at hi ⊢; cases hi; rfl
    · cases hi
    · cases hi; simp [isFilled] at hf
  | _ => simp [isFilled] at hf

/-! ### Results -/

/-- **C126** The set that ssetmask and sgetmask return, the handler that signal returns, and the signal that rt_sigtimedwait
returns are shown next to the result; nothing is shown for a call that has failed. -/
theorem results (w : Nat) (hw : w = 4 ∨ w = 8) (c : Call) :
    (c.failed = true → ∀ s, aux w s c = .none) ∧
    (c.failed = false →
      (∃ v, aux w .ssetmask c = .oldMask v ∧ SameSet 32 v c.rval) ∧
      (∃ v, aux w .sgetmask c = .mask v ∧ SameSet (8 * w) v c.rval) ∧
      aux w .signal c = .handler c.rval ∧
      (∀ t, c.rval ≠ 0 → aux w (.rtSigtimedwait t) c = .signal (signed c.rval))) := by
  refine ⟨fun h s => ?_, fun h => ⟨⟨_, by simp only [aux, h, if_true], oldMask_same32 hw _⟩,
    ⟨_, by simp only [aux, h, if_true], oldMask_same hw _⟩, by simp [aux, h], fun t h0 => ?_⟩⟩
  · cases s <;> simp [aux, h]
  · simp [aux, h, h0]; rfl

/-- **C126** The set that sgetmask or ssetmask returns on i386 is never taken for an error: SIGSTOP (19) is
never in it. -/
theorem mask_is_no_error (mask : Nat) (hlt : mask < 2 ^ 32) (hs : mask.testBit 18 = false) :
    Strace.Result.archGetError .i386 mask true = ⟨mask, 0⟩ := by
  have h18 : mask / 2 ^ 18 % 2 = 0 := by
    rw [Nat.testBit_eq_decide_div_mod_eq] at hs
    have := of_decide_eq_false hs
    omega
  have hn : mask < 4294963201 := by omega
  have hneg : Strace.Result.isNegatedErrno .i386 (Strace.Result.s32 mask) = false := by
    unfold Strace.Result.isNegatedErrno Strace.Result.s32
    simp only [Strace.Result.Pers.klong8, Bool.false_eq_true, if_false, decide_eq_false_iff_not]
    omega
  unfold Strace.Result.archGetError
  simp only [if_true, hneg, Bool.and_false, Bool.false_eq_true, if_false]
  have he : Strace.Result.s32 mask % 2 ^ 32 = mask := by
    unfold Strace.Result.s32
    omega
  rw [he]

/-! ### An action at the end of memory -/

/-- Memory that can be read from 4096 to 8191, with zeros. -/
def page : Mem := fun a => if 4096 ≤ a ∧ a < 8192 then some 0 else none

/-- rt_sigaction(SIGHUP, act, NULL, 8), the action being the last 32 bytes of the page. -/
def lastAction : Call :=
  { arg := fun i => [1, 8160, 0, 8].getD i 0, before := page, after := page, failed := false, rval := 0, verbose := true,
    strlen := 32 }

/-- **C126** An action that the kernel can read is not always shown. -/
theorem action_not_shown : Readable lastAction.before (lastAction.arg 1) (actionSize 8) ∧
    ¬ Shown (actionSize 8) 8 lastAction (early 8 .rtSigaction lastAction) (late 8 .rtSigaction lastAction) (.rdNew 1) := by
  have hr : Readable lastAction.before (lastAction.arg 1) (actionSize 8) := by
    intro k hk
    show (page (8160 + k)).isSome = true
    have : k < 32 := hk
    unfold page
    rw [if_pos (by omega)]
    rfl
  have hE : early 8 .rtSigaction lastAction ++ late 8 .rtSigaction lastAction =
      [.int 0 1, .sep, .addr 1 8160, .sep, .addr 2 0, .sep, .num 3 8] := by decide +kernel
  refine ⟨hr, fun ⟨t, ht, h1, _⟩ => ?_⟩
  rw [hE] at ht
  have ht2 := h1 ⟨by decide, hr⟩
  have h2 : fromMemory t = true := by
    unfold NewAction at ht2
    rw [ht2, fromMemory]
  have h3 : ∀ t ∈ [Tok.int 0 1, .sep, .addr 1 8160, .sep, .addr 2 0, .sep, .num 3 8], fromMemory t = false := by decide
  rw [h3 t ht] at h2
  cases h2

/-- **C126** An action is shown exactly when all the bytes that strace reads can be read: `56` more than the kernel reads. -/
theorem action_shown_iff (w : Nat) (c : Call) :
    fromMemory (newAction .entering w c 1) = true ↔
      (c.arg 1 ≠ 0 ∧ c.verbose = true) ∧ Readable c.before (c.arg 1) (actionSize w + 56) := by
  have h := newAction_rd (w := w) (c := c) (i := 1)
  rw [show actionSize w + 56 = 3 * w + 64 by unfold actionSize; omega]
  constructor
  · intro hf
    refine Classical.byContradiction fun hn => ?_
    rw [h.2 hn] at hf
    cases hf
  · intro hc
    rw [h.1 hc]
    rfl

/-! ### Examples -/

/-- rt_sigprocmask(SIG_BLOCK, {SIGINT}, old, 8), where the old set was {SIGHUP}. -/
def demo : Call :=
  { arg := fun i => [0, 4096, 4112, 8].getD i 0
    before := fun a => if a = 4096 then some 2 else if 4096 ≤ a ∧ a < 8192 then some 0 else none
    after := fun a => if a = 4096 then some 2 else if a = 4112 then some 1 else if 4096 ≤ a ∧ a < 8192 then some 0 else none
    failed := false, rval := 0, verbose := true, strlen := 32 }

example : Bytes demo.before ∧ Bytes demo.after ∧ uses 8 .rtSigprocmask demo.arg = [.low 0, .num 3, .rdSet 1 8, .wrSet 2 8] ∧
    early 8 .rtSigprocmask demo = [.num 0 0, .sep, .set 1 2, .sep] ∧
    late 8 .rtSigprocmask demo = [.set 2 1, .sep, .num 3 8] := by
  refine ⟨?_, ?_, by decide, by decide +kernel, by decide +kernel⟩
  · intro a b h
    simp only [demo] at h
    repeat' split at h
    all_goals first | (cases h; done) | (cases h; decide)
  · intro a b h
    simp only [demo] at h
    repeat' split at h
    all_goals first | (cases h; done) | (cases h; decide)

/-- The same call, failing, shows the address of the old set. -/
example : late 8 .rtSigprocmask { demo with failed := true } = [.addr 2 4112, .sep, .num 3 8] := by decide +kernel

/-- An action that is not at the end of memory. -/
example : early 8 .rtSigaction { lastAction with arg := fun i => [1, 4096, 0, 8].getD i 0 } =
    [.int 0 1, .sep, .act 1 0 0 0 none, .sep] := by decide +kernel

/-- A set that sgetmask returns. -/
example : Strace.Result.archGetError .i386 0xfffbfeff true = ⟨0xfffbfeff, 0⟩ :=
  mask_is_no_error 0xfffbfeff (by decide) (by decide)

end Strace.Sigc
