import Verif.Psi.Spec
import Mathlib.Data.List.Basic
/-!
# C109: PTRACE_GET_SYSCALL_INFO
-/
namespace Strace.Psi

theorem common_iff (i : Info) : common i = true ↔ Common i := by simp [common, Common, and_assoc]

theorem none_iff (i : Info) : noneOk i = true ↔ AtStop i := by
  simp [noneOk, AtStop, common_iff, and_assoc]

theorem entry_iff (str n nr : Nat) (args : List Nat) (i : Info) (h : expArgs str (n / 2) = some (nr, args)) :
    entryOk str n i = true ↔ AtEntry i nr args := by
  unfold entryOk
  rw [h]
  simp [AtEntry, common_iff, and_assoc]

theorem exit_iff (pid n e : Nat) (v : Int) (i : Info) (h : expExit pid (n / 2 - 1) = some (e, v)) :
    exitOk pid n i = true ↔ AtExit i e v := by
  unfold exitOk
  rw [h]
  simp [AtExit, common_iff, and_assoc]

/-- the child is gone when the test is over, unless strace ends or still waits -/
theorem child_gone (str pid : Nat) (evs : List Ev) : ∀ n s k w, run str pid n evs = .answer s k w →
    (k = true ∧ w = true) ∨ ∃ pre last rest, evs = pre ++ last :: rest ∧ ((∃ c, last = .exited c) ∨ ∃ g, last = .killedBy g) := by
  induction evs with
  | nil => intro n s k w h; simp [run] at h
  | cons e evs ih =>
    intro n s k w h
    cases e with
    | waitFails => simp [run] at h
    | other => simp [run] at h
    | exited c => exact Or.inr ⟨[], .exited c, evs, rfl, Or.inl ⟨c, rfl⟩⟩
    | killedBy g => exact Or.inr ⟨[], .killedBy g, evs, rfl, Or.inr ⟨g, rfl⟩⟩
    | stopped sig o i r =>
      have hf : failed = .answer s k w → (k = true ∧ w = true) := by
        intro h; simp [failed] at h; exact ⟨h.2.1.symm ▸ rfl, h.2.2.symm ▸ rfl⟩
      have hrec : run str pid (n + 1) evs = .answer s k w →
          ∃ pre last rest, (Ev.stopped sig o i r :: evs) = pre ++ last :: rest ∧ ((∃ c, last = .exited c) ∨ ∃ g, last = .killedBy g) ∨
            (k = true ∧ w = true) := by
        intro h
        rcases ih _ _ _ _ h with h | ⟨pre, last, rest, he, hl⟩
        · exact ⟨[], .other, [], Or.inr h⟩
        · exact ⟨Ev.stopped sig o i r :: pre, last, rest, Or.inl ⟨by rw [he]; rfl, hl⟩⟩
      have fin : run str pid (n + 1) evs = .answer s k w → (k = true ∧ w = true) ∨ ∃ pre last rest,
          (Ev.stopped sig o i r :: evs) = pre ++ last :: rest ∧ ((∃ c, last = .exited c) ∨ ∃ g, last = .killedBy g) := by
        intro h
        obtain ⟨a, b, c, h | h⟩ := hrec h
        · exact Or.inr ⟨a, b, c, h⟩
        · exact Or.inl h
      simp only [run] at h
      repeat' split at h
      all_goals first | exact Or.inl (hf h) | exact fin h | simp at h

/-- what one stop does -/
theorem run_stop (str pid n : Nat) (sig : Nat) (o : Bool) (i : Info) (r : Bool) (evs : List Ev) (k w : Bool)
    (h : run str pid n (.stopped sig o i r :: evs) = .answer true k w) :
    r = true ∧ run str pid (n + 1) evs = .answer true k w ∧
      ((sig = 19 ∧ n = 0 ∧ o = true ∧ noneOk i = true) ∨ (sig = 133 ∧ (n = 1 ∨ n = 3 ∨ n = 5) ∧ entryOk str n i = true) ∨
        (sig = 133 ∧ (n = 2 ∨ n = 4) ∧ exitOk pid n i = true)) := by
  simp only [run, failed] at h
  by_cases hs : sig = sigstop
  · rw [if_pos hs] at h
    by_cases hn : n = 0
    · rw [if_neg (by simp [hn])] at h
      cases o with
      | false => simp at h
      | true =>
        simp only [Bool.true_eq_false, if_false] at h
        split at h
        · simp at h
        · split at h
          · simp at h
          · rename_i hok
            cases r with
            | false => simp at h
            | true => exact ⟨rfl, by simpa using h, Or.inl ⟨hs, hn, rfl, by simpa using hok⟩⟩
    · rw [if_pos hn] at h
      simp at h
  · rw [if_neg hs] at h
    by_cases ht : sig = sigtrap80
    · rw [if_pos ht] at h
      split at h
      · simp at h
      · split at h
        · simp at h
        · rename_i hok
          cases r with
          | false => simp at h
          | true =>
            refine ⟨rfl, by simpa using h, Or.inr ?_⟩
            have hok : stopOk str pid n i = true := by simpa using hok
            unfold stopOk at hok
            match n, hok with
            | 1, hok => exact Or.inl ⟨ht, by simp, hok⟩
            | 3, hok => exact Or.inl ⟨ht, by simp, hok⟩
            | 5, hok => exact Or.inl ⟨ht, by simp, hok⟩
            | 2, hok => exact Or.inr ⟨ht, by simp, hok⟩
            | 4, hok => exact Or.inr ⟨ht, by simp, hok⟩
            | 0, hok => simp at hok
            | n + 6, hok => simp at hok
    · rw [if_neg ht] at h
      simp at h

/-- a positive answer from a stop on means that there is a stop, or the end after all of them -/
theorem run_cases (str pid n : Nat) (evs : List Ev) (k w : Bool) (h : run str pid n evs = .answer true k w) :
    (n = 6 ∧ ∃ rest, evs = .exited 0 :: rest) ∨
    ∃ sig o i rest, evs = .stopped sig o i true :: rest ∧ run str pid (n + 1) rest = .answer true k w ∧
      ((sig = 19 ∧ n = 0 ∧ o = true ∧ noneOk i = true) ∨ (sig = 133 ∧ (n = 1 ∨ n = 3 ∨ n = 5) ∧ entryOk str n i = true) ∨
        (sig = 133 ∧ (n = 2 ∨ n = 4) ∧ exitOk pid n i = true)) := by
  cases evs with
  | nil => simp [run] at h
  | cons e evs =>
    cases e with
    | waitFails => simp [run] at h
    | other => simp [run] at h
    | killedBy g => simp [run] at h
    | exited c =>
      simp [run] at h
      exact Or.inl ⟨h.1.2, evs, by rw [h.1.1]⟩
    | stopped sig o i r =>
      obtain ⟨rfl, h1, h2⟩ := run_stop _ _ _ _ _ _ _ _ _ _ h
      exact Or.inr ⟨sig, o, i, evs, rfl, h1, h2⟩

/-- C109, the test: strace takes the interface for supported exactly if all the answers were those expected -/
theorem supported_iff (str pid : Nat) (evs : List Ev) : (∃ k w, run str pid 0 evs = .answer true k w) ↔ Works str pid evs := by
  constructor
  · rintro ⟨k, w, h⟩
    rcases run_cases _ _ _ _ _ _ h with ⟨h0, _⟩ | ⟨s0, o0, i0, e0, rfl, h, c0⟩
    · simp at h0
    rcases run_cases _ _ _ _ _ _ h with ⟨h0, _⟩ | ⟨s1, o1, i1, e1, rfl, h, c1⟩
    · simp at h0
    rcases run_cases _ _ _ _ _ _ h with ⟨h0, _⟩ | ⟨s2, o2, i2, e2, rfl, h, c2⟩
    · simp at h0
    rcases run_cases _ _ _ _ _ _ h with ⟨h0, _⟩ | ⟨s3, o3, i3, e3, rfl, h, c3⟩
    · simp at h0
    rcases run_cases _ _ _ _ _ _ h with ⟨h0, _⟩ | ⟨s4, o4, i4, e4, rfl, h, c4⟩
    · simp at h0
    rcases run_cases _ _ _ _ _ _ h with ⟨h0, _⟩ | ⟨s5, o5, i5, e5, rfl, h, c5⟩
    · simp at h0
    rcases run_cases _ _ _ _ _ _ h with ⟨_, e6, rfl⟩ | ⟨s6, o6, i6, e6, rfl, h, c6⟩
    · simp at c0 c1 c2 c3 c4 c5
      refine ⟨i0, i1, i2, i3, i4, i5, o1, o2, o3, o4, o5, e6, ?_, ?_, ?_, ?_, ?_, ?_, ?_⟩
      · rw [c0.1, c0.2.1, c1.1, c2.1, c3.1, c4.1, c5.1]
      · exact (none_iff _).mp c0.2.2
      · exact (entry_iff str 1 _ _ _ rfl).mp c1.2
      · exact (exit_iff pid 2 _ _ _ rfl).mp c2.2
      · exact (entry_iff str 3 _ _ _ rfl).mp c3.2
      · exact (exit_iff pid 4 _ _ _ rfl).mp c4.2
      · exact (entry_iff str 5 _ _ _ rfl).mp c5.2
    · simp at c6
  · rintro ⟨i0, i1, i2, i3, i4, i5, b1, b2, b3, b4, b5, rest, rfl, h0, h1, h2, h3, h4, h5⟩
    have p0 : ¬ i0.rc < 0 := by have := h0.1; omega
    have p1 : ¬ i1.rc < 0 := by have := h1.1; omega
    have p2 : ¬ i2.rc < 0 := by have := h2.1; omega
    have p3 : ¬ i3.rc < 0 := by have := h3.1; omega
    have p4 : ¬ i4.rc < 0 := by have := h4.1; omega
    have p5 : ¬ i5.rc < 0 := by have := h5.1; omega
    have q0 := (none_iff _).mpr h0
    have q1 := (entry_iff str 1 _ _ _ rfl).mpr h1
    have q2 := (exit_iff pid 2 _ _ _ rfl).mpr h2
    have q3 := (entry_iff str 3 _ _ _ rfl).mpr h3
    have q4 := (exit_iff pid 4 _ _ _ rfl).mpr h4
    have q5 := (entry_iff str 5 _ _ _ rfl).mpr h5
    refine ⟨false, false, ?_⟩
    simp [run, stopOk, sigstop, sigtrap80, p0, p1, p2, p3, p4, p5, q0, q1, q2, q3, q4, q5]

/-! ## printing -/

theorem num_le (b : List Nat) (w : Nat) : ∀ off, off + w ≤ b.length → num b off w = le ((b.drop off).take w) := by
  induction w with
  | zero => intro off _; simp [num, le]
  | succ w ih =>
    intro off h
    rw [List.drop_eq_getElem_cons (by omega), List.take_succ_cons]
    simp only [num, le, List.foldr_cons]
    rw [ih (off + 1) (by omega), List.getElem?_eq_getElem (by omega)]
    rfl

/-- where something is shown: the bytes are all there -/
theorem num_value (b : List Nat) (s : String) (off w : Nat) (h : off + w ≤ b.length) : num b off w = valueOf b (s, off, w) := num_le b w off h

/-- what is wanted of one member -/
def one (b : List Nat) (m : Member) : List Shown := if toShow b m = true then [⟨m.1, valueOf b m, asError b m⟩] else []

theorem wanted_flat (b : List Nat) (l : List Member) :
    (l.filter (toShow b)).map (fun m => (⟨m.1, valueOf b m, asError b m⟩ : Shown)) = l.flatMap (one b) := by
  induction l with
  | nil => rfl
  | cons m l ih =>
    rw [List.flatMap_cons, List.filter_cons, ← ih]
    unfold one
    cases toShow b m <;> simp

theorem one_short (b : List Nat) (s : String) (off w : Nat) (h : b.length < off + w) : one b (s, off, w) = [] := by
  unfold one toShow
  simp only
  rw [decide_eq_false (by omega)]
  simp

theorem one_whole (b : List Nat) (s : String) (off w : Nat) (h : off + w ≤ b.length)
    (hs : s ≠ "reserved" ∧ s ≠ "flags" ∧ s ≠ "reserved2") (hr : s ≠ "rval") : one b (s, off, w) = [⟨s, num b off w, false⟩] := by
  unfold one toShow asError
  simp only
  rw [decide_eq_true h, decide_eq_true hs, decide_eq_false hr, num_value b s off w h]
  simp

theorem one_reserved (b : List Nat) (s : String) (off w : Nat) (h : off + w ≤ b.length) (hs : s = "reserved" ∨ s = "flags") :
    one b (s, off, w) = if num b off w ≠ 0 then [⟨s, num b off w, false⟩] else [] := by
  rw [num_value b s off w h]
  unfold one toShow asError
  rcases hs with rfl | rfl <;> simp [h]

theorem one_rval (b : List Nat) (h : 32 ≤ b.length) :
    one b ("rval", 24, 8) = [if b.length ≥ 33 ∧ num b 32 1 ≠ 0 then ⟨"rval", num b 24 8, true⟩ else ⟨"rval", num b 24 8, false⟩] := by
  rw [num_value b "rval" 24 8 (by omega)]
  unfold one toShow asError
  simp only [ge_iff_le]
  rw [decide_eq_true (by omega : 24 + 8 ≤ b.length)]
  by_cases hl : 33 ≤ b.length
  · have : b[32]? = some b[32] := List.getElem?_eq_getElem (by omega)
    by_cases hz : b[32] = 0 <;> simp [num, hl, this, hz]
  · simp [hl]

/-- the members without the second reserved one -/
def kept (op : Nat) : List Member := (members op).filter fun m => decide (m.1 ≠ "reserved2")

theorem one_name (b : List Nat) (m : Member) : ∀ x ∈ one b m, x.name = m.1 := by
  unfold one
  split <;> simp

theorem kept_flat (b : List Nat) (l : List Member) :
    (l.flatMap (one b)).filter (fun x => decide (x.name ≠ "reserved2")) =
      (l.filter fun m => decide (m.1 ≠ "reserved2")).flatMap (one b) := by
  induction l with
  | nil => rfl
  | cons m l ih =>
    rw [List.flatMap_cons, List.filter_append, ih, List.filter_cons]
    by_cases hm : m.1 = "reserved2"
    · have : (one b m).filter (fun x => decide (x.name ≠ "reserved2")) = [] := by
        rw [List.filter_eq_nil_iff]
        intro x hx
        simp [one_name b m x hx, hm]
      rw [this]
      simp [hm]
    · have : (one b m).filter (fun x => decide (x.name ≠ "reserved2")) = one b m := by
        rw [List.filter_eq_self]
        intro x hx
        simp [one_name b m x hx, hm]
      rw [this]
      simp [hm]

/-- the elements of args -/
def sixArgs : List Member := [("args", 32, 8), ("args", 40, 8), ("args", 48, 8), ("args", 56, 8), ("args", 64, 8), ("args", 72, 8)]

theorem args_short (b : List Nat) (h : b.length < 40) : sixArgs.flatMap (one b) = [] := by
  simp only [sixArgs, List.flatMap_cons, List.flatMap_nil]
  rw [one_short _ _ _ _ (by omega), one_short _ _ _ _ (by omega), one_short _ _ _ _ (by omega), one_short _ _ _ _ (by omega),
    one_short _ _ _ _ (by omega), one_short _ _ _ _ (by omega)]
  rfl

theorem args_flat (b : List Nat) (h : 32 ≤ b.length) : argsShown b b.length = sixArgs.flatMap (one b) := by
  have w : ∀ off, off + 8 ≤ b.length → one b ("args", off, 8) = [⟨"args", num b off 8, false⟩] := fun off ho =>
    one_whole b "args" off 8 ho (by decide) (by decide)
  have s : ∀ off, b.length < off + 8 → one b ("args", off, 8) = [] := fun off ho => one_short b "args" off 8 ho
  simp only [sixArgs, List.flatMap_cons, List.flatMap_nil, argsShown]
  by_cases h1 : b.length < 40
  · rw [s 32 (by omega), s 40 (by omega), s 48 (by omega), s 56 (by omega), s 64 (by omega), s 72 (by omega),
      show min ((b.length - 32) / 8) 6 = 0 by omega]; rfl
  by_cases h2 : b.length < 48
  · rw [w 32 (by omega), s 40 (by omega), s 48 (by omega), s 56 (by omega), s 64 (by omega), s 72 (by omega),
      show min ((b.length - 32) / 8) 6 = 1 by omega]; rfl
  by_cases h3 : b.length < 56
  · rw [w 32 (by omega), w 40 (by omega), s 48 (by omega), s 56 (by omega), s 64 (by omega), s 72 (by omega),
      show min ((b.length - 32) / 8) 6 = 2 by omega]; rfl
  by_cases h4 : b.length < 64
  · rw [w 32 (by omega), w 40 (by omega), w 48 (by omega), s 56 (by omega), s 64 (by omega), s 72 (by omega),
      show min ((b.length - 32) / 8) 6 = 3 by omega]; rfl
  by_cases h5 : b.length < 72
  · rw [w 32 (by omega), w 40 (by omega), w 48 (by omega), w 56 (by omega), s 64 (by omega), s 72 (by omega),
      show min ((b.length - 32) / 8) 6 = 4 by omega]; rfl
  by_cases h6 : b.length < 80
  · rw [w 32 (by omega), w 40 (by omega), w 48 (by omega), w 56 (by omega), w 64 (by omega), s 72 (by omega),
      show min ((b.length - 32) / 8) 6 = 5 by omega]; rfl
  · rw [w 32 (by omega), w 40 (by omega), w 48 (by omega), w 56 (by omega), w 64 (by omega), w 72 (by omega),
      show min ((b.length - 32) / 8) 6 = 6 by omega]; rfl

theorem entry_flat (b : List Nat) (h : 32 ≤ b.length) : psiEntry b b.length = (("nr", 24, 8) :: sixArgs).flatMap (one b) := by
  rw [List.flatMap_cons, one_whole b "nr" 24 8 (by omega) (by decide) (by decide)]
  unfold psiEntry
  by_cases h1 : b.length < 40
  · rw [if_neg (by omega), args_short b h1]; rfl
  · rw [if_pos (by omega), args_flat b h]; rfl

theorem seccomp_flat (b : List Nat) (h : 32 ≤ b.length) :
    psiSeccomp b b.length = (("nr", 24, 8) :: sixArgs).flatMap (one b) ++ one b ("ret_data", 80, 4) := by
  rw [← entry_flat b h]
  unfold psiSeccomp psiEntry
  by_cases h1 : b.length < 84
  · rw [one_short _ _ _ _ h1, if_neg (by omega : ¬ b.length ≥ 84)]
  · rw [one_whole b "ret_data" 80 4 (by omega) (by decide) (by decide), if_pos (by omega : b.length ≥ 84)]

theorem exit_flat (b : List Nat) (h : 32 ≤ b.length) :
    psiExit b b.length = [("rval", 24, 8), ("is_error", 32, 1)].flatMap (one b) := by
  simp only [List.flatMap_cons, List.flatMap_nil]
  rw [one_rval b h]
  unfold psiExit
  by_cases h1 : b.length < 33
  · rw [one_short _ _ _ _ (by omega), if_neg (by omega : ¬ b.length ≥ 33)]; rfl
  · rw [one_whole b "is_error" 32 1 (by omega) (by decide) (by decide), if_pos (by omega : b.length ≥ 33)]; rfl

/-- the members after stack_pointer -/
def tailMembers (op : Nat) : List Member :=
  if op = 1 then ("nr", 24, 8) :: sixArgs
  else if op = 2 then [("rval", 24, 8), ("is_error", 32, 1)]
  else if op = 3 then ("nr", 24, 8) :: sixArgs ++ [("ret_data", 80, 4)]
  else []

theorem kept_eq (op : Nat) : kept op =
    [("op", 0, 1), ("reserved", 1, 1), ("flags", 2, 2), ("arch", 4, 4), ("instruction_pointer", 8, 8), ("stack_pointer", 16, 8)] ++
      tailMembers op := by
  unfold kept members tailMembers
  by_cases h1 : op = 1
  · subst h1; decide +kernel
  by_cases h2 : op = 2
  · subst h2; decide +kernel
  by_cases h3 : op = 3
  · subst h3; decide +kernel
  · simp [h1, h2, h3]

theorem tail_short (b : List Nat) (op : Nat) (h : b.length < 32) : (tailMembers op).flatMap (one b) = [] := by
  have a := args_short b (by omega)
  unfold tailMembers
  split
  · rw [List.flatMap_cons, a, one_short _ _ _ _ (by omega)]; rfl
  · split
    · simp only [List.flatMap_cons, List.flatMap_nil]
      rw [one_short _ _ _ _ (by omega), one_short _ _ _ _ (by omega)]; rfl
    · split
      · rw [List.flatMap_append, List.flatMap_cons, a, one_short _ _ _ _ (by omega), List.flatMap_cons, one_short _ _ _ _ (by omega)]; rfl
      · rfl

theorem tail_flat (b : List Nat) (h : 32 ≤ b.length) :
    psiUnion b b.length (num b 0 1) = (tailMembers (num b 0 1)).flatMap (one b) := by
  generalize num b 0 1 = op
  unfold psiUnion
  split
  · rw [entry_flat b h]; rfl
  · rw [seccomp_flat b h]
    simp [tailMembers, List.flatMap_append]
  · rw [exit_flat b h]; rfl
  · rename_i h1 h3 h2
    unfold tailMembers
    rw [if_neg h1, if_neg h2, if_neg h3]; rfl

theorem psiTail_flat (b : List Nat) :
    psiTail b b.length = (("stack_pointer", 16, 8) :: tailMembers (num b 0 1)).flatMap (one b) := by
  rw [List.flatMap_cons]
  unfold psiTail
  by_cases h1 : b.length < 24
  · rw [if_pos h1, tail_short b _ (by omega), one_short _ _ _ _ (by omega)]; rfl
  · rw [if_neg h1, one_whole b "stack_pointer" 16 8 (by omega) (by decide) (by decide)]
    by_cases h2 : b.length < 32
    · rw [if_pos h2, tail_short b _ h2]; rfl
    · rw [if_neg h2, tail_flat b (by omega)]; rfl

theorem psiMid_flat (b : List Nat) :
    psiMid b b.length = ([("arch", 4, 4), ("instruction_pointer", 8, 8), ("stack_pointer", 16, 8)] ++ tailMembers (num b 0 1)).flatMap (one b) := by
  have ht := psiTail_flat b
  simp only [List.cons_append, List.nil_append, List.flatMap_cons] at ht ⊢
  unfold psiMid
  by_cases h1 : b.length < 8
  · rw [if_pos h1, tail_short b _ (by omega), one_short _ _ _ _ (by omega), one_short _ _ _ _ (by omega), one_short _ _ _ _ (by omega)]; rfl
  · rw [if_neg h1, one_whole b "arch" 4 4 (by omega) (by decide) (by decide)]
    by_cases h2 : b.length < 16
    · rw [if_pos h2, tail_short b _ (by omega), one_short _ _ _ _ (by omega), one_short _ _ _ _ (by omega)]; rfl
    · rw [if_neg h2, one_whole b "instruction_pointer" 8 8 (by omega) (by decide) (by decide), ht]; rfl

/-- C109, printing: of what the kernel wrote exactly the members that were written as a whole are shown, with their values -/
theorem shown_partial (b : List Nat) (h0 : b.length ≠ 0) (h3 : b.length ≠ 3) :
    psi b b.length = (wanted b).filter fun x => decide (x.name ≠ "reserved2") := by
  have hop : b.headD 0 = num b 0 1 := by cases b <;> simp [num]
  unfold wanted
  rw [wanted_flat, kept_flat, hop]
  have hk := kept_eq (num b 0 1)
  unfold kept at hk
  rw [hk]
  have hm := psiMid_flat b
  simp only [List.cons_append, List.nil_append, List.flatMap_cons] at hm ⊢
  rw [← hm, one_whole b "op" 0 1 (by omega) (by decide) (by decide)]
  unfold psi
  by_cases h1 : b.length ≤ 1
  · rw [if_pos h1, one_short _ _ _ _ (by omega), one_short _ _ _ _ (by omega)]
    unfold psiMid
    rw [if_pos (by omega)]; rfl
  · rw [if_neg h1, one_reserved b "reserved" 1 1 (by omega) (Or.inl rfl)]
    by_cases h2 : b.length ≤ 2
    · have hz : psiMid b b.length = [] := by unfold psiMid; rw [if_pos (by omega)]
      rw [if_pos h2, one_short _ _ _ _ (by omega), hz]; rfl
    · rw [if_neg h2, one_reserved b "flags" 2 2 (by omega) (Or.inr rfl)]; rfl

/-- what is fetched is no more than what the kernel has, what the tracee has room for, and the structure; nothing is shown of less
than a byte or of memory that cannot be read -/
theorem fetched (mem : Nat → Option (List Nat)) (user kernel : Nat) (s : List Shown) :
    printInfo mem user kernel = some s ↔
      0 < user ∧ 0 < kernel ∧ ∃ n b, n ≤ user ∧ n ≤ kernel ∧ n ≤ 88 ∧ (n = user ∨ n = kernel ∨ n = 88) ∧ mem n = some b ∧ s = psi b n := by
  unfold printInfo
  simp only
  have key : ∀ n, n ≤ user → n ≤ kernel → n ≤ 88 → (n = user ∨ n = kernel ∨ n = 88) → n = min (min user kernel) 88 := by
    intro n; omega
  by_cases h : min (min user kernel) 88 = 0
  · rw [if_pos h]
    constructor
    · intro h; cases h
    · rintro ⟨h1, h2, _⟩; omega
  · rw [if_neg h]
    cases hm : mem (min (min user kernel) 88) with
    | none =>
      constructor
      · intro h; cases h
      · rintro ⟨_, _, n, b, a1, a2, a3, a4, hb, _⟩
        rw [key n a1 a2 a3 a4, hm] at hb
        cases hb
    | some b =>
      constructor
      · intro hs
        exact ⟨by omega, by omega, _, b, by omega, by omega, by omega, by omega, hm, (Option.some.inj hs).symm⟩
      · rintro ⟨_, _, n, b', a1, a2, a3, a4, hb, hs⟩
        rw [key n a1 a2 a3 a4, hm] at hb
        rw [hs, key n a1 a2 a3 a4, ← Option.some.inj hb]

/-- the claim fails where three bytes were written: half of the flags is taken for all of them -/
theorem half_of_flags : psi [0, 0, 1] 3 ≠ wanted [0, 0, 1] := by decide +kernel

/-- and the second reserved member is not shown -/
theorem second_reserved : psi (3 :: List.replicate 83 0 ++ [1, 0, 0, 0]) 88 ≠ wanted (3 :: List.replicate 83 0 ++ [1, 0, 0, 0]) := by
  decide +kernel

/-! ## the hypotheses are met -/

/-- the answers of a kernel that has the interface -/
def good : List Ev :=
  [.stopped 19 true ⟨24, 0, 1, 1, 1, 0, [], 0, 0⟩ true,
   .stopped 133 true ⟨80, 1, 1, 1, 1, 80, [7, 0xdad1bef1bad1fed1, 0xdad2bef2bad2fed2, 0xdad3bef3bad3fed3, 0xdad4bef4bad4fed4, 0xdad5bef5bad5fed5], 0, 0⟩ true,
   .stopped 133 true ⟨33, 2, 1, 1, 1, 0, [], 1, -2⟩ true,
   .stopped 133 true ⟨80, 1, 1, 1, 1, 186, [0xdad0bef0caf0bea0, 0xdad1bef1caf1bea1, 0xdad2bef2caf2bea2, 0xdad3bef3caf3bea3, 0xdad4bef4caf4bea4, 0xdad5bef5caf5bea5], 0, 0⟩ true,
   .stopped 133 true ⟨33, 2, 1, 1, 1, 0, [], 0, 1234⟩ true,
   .stopped 133 true ⟨80, 1, 1, 1, 1, 231, [0, 0xdad1bef1fac1c0d1, 0xdad2bef2fac2c0d2, 0xdad3bef3fac3c0d3, 0xdad4bef4fac4c0d4, 0xdad5bef5fac5c0d5], 0, 0⟩ true,
   .exited 0]

example : run 7 1234 0 good = .answer true false false := by decide +kernel
example : Works 7 1234 good := (supported_iff 7 1234 good).mp ⟨false, false, by decide +kernel⟩
example : run 7 1234 0 [.stopped 19 true ⟨-1, 0, 0, 0, 0, 0, [], 0, 0⟩ true] = .answer false true true := by decide +kernel
/-- an exit answer with an error -/
example : psi (2 :: List.replicate 23 0 ++ [254, 255, 255, 255, 255, 255, 255, 255, 1]) 33 =
    [⟨"op", 2, false⟩, ⟨"arch", 0, false⟩, ⟨"instruction_pointer", 0, false⟩, ⟨"stack_pointer", 0, false⟩,
     ⟨"rval", 18446744073709551614, true⟩, ⟨"is_error", 1, false⟩] := by decide +kernel
example : (wanted (1 :: List.replicate 47 5)).length = 9 := by decide +kernel
example : ∃ b, b.length ≠ 0 ∧ b.length ≠ 3 ∧ (psi b b.length).length = 9 := ⟨1 :: List.replicate 47 5, by decide +kernel⟩
example : printInfo (fun n => some (List.replicate n 0)) 100 1 = some [⟨"op", 0, false⟩] := by decide +kernel

end Strace.Psi
