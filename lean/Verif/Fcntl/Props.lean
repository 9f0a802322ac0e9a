import Verif.Fcntl.Spec
namespace Strace.Fcntl
open Spec

/-! ## Memory -/

theorem umoven_holds {m : Mem} {B : Nat → Nat} : ∀ {n a o : Nat}, (∀ i, i < n → m (a + i) = some (B (o + i))) →
    ∃ l, umoven m a n = some l ∧ ∀ i, i < n → l.getD i 0 = B (o + i)
  | 0, _, _, _ => ⟨[], rfl, by omega⟩
  | n + 1, a, o, h => by
    obtain ⟨l, hl, hg⟩ := umoven_holds (m := m) (B := B) (n := n) (a := a + 1) (o := o + 1) (by
      intro i hi
      have := h (i + 1) (by omega)
      rw [show a + 1 + i = a + (i + 1) by omega, show o + 1 + i = o + (i + 1) by omega]
      exact this)
    have h0 := h 0 (by omega)
    simp only [Nat.add_zero] at h0
    refine ⟨B o :: l, by simp [umoven, h0, hl], ?_⟩
    intro i hi
    cases i with
    | zero => simp
    | succ i =>
      have := hg i (by omega)
      simp only [List.getD_cons_succ]
      rw [this]; congr 1; omega

theorem umoven_some {m : Mem} : ∀ {n a : Nat} {l : List Nat}, umoven m a n = some l → ∀ i, i < n → m (a + i) ≠ none
  | 0, _, _, _ => by omega
  | n + 1, a, l, h => by
    intro i hi
    simp only [umoven] at h
    split at h
    · rename_i b t hb ht
      cases i with
      | zero => simp [hb]
      | succ i =>
        have := umoven_some ht i (by omega)
        rw [show a + (i + 1) = a + 1 + i by omega]; exact this
    · cases h

theorem le_low (B : Nat → Nat) : ∀ (n o : Nat), le B o (n + 1) = B o + 256 * le B (o + 1) n
  | 0, o => by simp [le]
  | n + 1, o => by
    have e : le B o (n + 2) = le B o (n + 1) + 256 ^ (n + 1) * B (o + (n + 1)) := rfl
    rw [e, le_low B n o]
    have e2 : le B (o + 1) (n + 1) = le B (o + 1) n + 256 ^ n * B (o + 1 + n) := rfl
    rw [e2, Nat.mul_add, Nat.pow_succ, show o + (n + 1) = o + 1 + n by omega, Nat.mul_comm (256 ^ n) 256, Nat.mul_assoc]
    omega

theorem word_le {l : List Nat} {B : Nat → Nat} : ∀ {n o k : Nat}, (∀ i, i < k → l.getD i 0 = B i) → o + n ≤ k →
    word l o n = le B o n
  | 0, _, _, _, _ => rfl
  | n + 1, o, k, h, hk => by
    rw [le_low]
    simp only [word]
    rw [h o (by omega), word_le (n := n) (o := o + 1) h (by omega)]

theorem pow256 (n : Nat) : 256 ^ n = 2 ^ (8 * n) := by
  rw [Nat.pow_mul]

theorem sword_sle {l : List Nat} {B : Nat → Nat} {n o k : Nat} (h : ∀ i, i < k → l.getD i 0 = B i) (hk : o + n ≤ k)
    (hn : 0 < n) : sword l o n = sle B o n := by
  have e : 2 ^ (8 * n) = 2 * 2 ^ (8 * n - 1) := by
    rw [← Nat.pow_succ']; congr 1; omega
  have e' := pow256 n
  unfold sword sle
  rw [word_le h hk]
  have e3 : ((256 : Int) ^ n) = ((2 : Int) ^ (8 * n)) := by
    have : ((256 ^ n : Nat) : Int) = ((2 ^ (8 * n) : Nat) : Int) := by rw [e']
    simpa using this
  by_cases c : le B o n < 2 ^ (8 * n - 1)
  · rw [if_pos c, if_pos (by omega)]
  · rw [if_neg c, if_neg (by omega), e3]

/-! ## The cases of a command -/

/-- What holds of both branches holds of the choice. -/
theorem choice {α : Type} (P : α → Prop) {q : Prop} [Decidable q] {a b : α} (ha : P a) (hb : P b) :
    P (if q then a else b) := by
  split
  · exact ha
  · exact hb

/-- A command known to be one of a list. -/
theorem run_is64 (c : Call) (prev : Int) (ph : Phase) (h : c.is64 = false ∨ c.cmd % 2 ^ 32 ∉ setLock64 ++ getLock64) :
    sysFunc ph c prev = printFcntl ph c prev := by
  unfold sysFunc
  rcases h with h | h
  · simp [h]
  · simp [setLock64, getLock64] at h
    simp [h]

/-- On entering, the argument that a decoder shows and the formats it returns with do not depend on the result the
field holds, F_GETOWN's format excepted. -/
theorem printFcntl_prev (ph : Phase) (c : Call) (p q : Int) (h : c.cmd % 2 ^ 32 ≠ 9 ∨ ph = .exiting) :
    printFcntl ph c p = printFcntl ph c q := by
  cases ph with
  | exiting => rfl
  | entering =>
    have h9 : c.cmd % 2 ^ 32 ≠ 9 := by
      rcases h with h | h
      · exact h
      · cases h
    unfold printFcntl
    simp [h9]

theorem sysFunc_prev (ph : Phase) (c : Call) (p q : Int) (h : c.cmd % 2 ^ 32 ≠ 9 ∨ ph = .exiting) :
    sysFunc ph c p = sysFunc ph c q := by
  unfold sysFunc
  rw [printFcntl_prev ph c p q h]

/-- For every command but F_GETOWN, what is shown of a call does not depend on the call before it. -/
theorem own_partial (c : Call) (p q : Int) (h : c.cmd % 2 ^ 32 ≠ 9) : run p c = run q c := by
  unfold run
  rw [sysFunc_prev .entering c p q (Or.inl h), sysFunc_prev .exiting c p q (Or.inl h)]

/-- For F_GETOWN it does: whether the result is taken for a process or for a group of processes is decided by the
result of the call before, whatever its own result is. -/
theorem getown (c : Call) (p : Int) (h : c.cmd % 2 ^ 32 = 9) :
    run p c = ⟨[], [], if intOf p < 0 then .pgid else .tgid, none⟩ := by
  have e : ∀ ph, sysFunc ph c p = printFcntl ph c p := fun ph =>
    run_is64 c p ph (Or.inr (by simp [setLock64, getLock64, h]))
  unfold run
  rw [e, e]
  by_cases hp : intOf p < 0 <;> simp [printFcntl, h, rvalAt, hp]

/-- **A call is shown by itself exactly if its command is not F_GETOWN.** -/
theorem own_iff (c : Call) : (∀ p q, run p c = run q c) ↔ c.cmd % 2 ^ 32 ≠ 9 := by
  constructor
  · intro h e
    have := h 0 (-1)
    rw [getown c _ e, getown c _ e] at this
    simp [intOf] at this
  · intro h p q
    exact own_partial c p q h

/-- **Histories**: what is shown of the calls of a history without F_GETOWN is what is shown of each of them
alone, in the same order. -/
theorem history_partial : ∀ (l : List Call) (prev : Int), (∀ c ∈ l, c.cmd % 2 ^ 32 ≠ 9) →
    trace prev l = l.map (run 0)
  | [], _, _ => rfl
  | c :: l, prev, h => by
    simp only [trace, List.map_cons]
    rw [history_partial l c.rval fun d hd => h d (List.mem_cons_of_mem _ hd),
      own_partial c prev 0 (h c (List.mem_cons_self ..))]

/-- A call of F_GETOWN whose result is `v`. -/
def getownCall (v : Int) : Call := ⟨.x64, false, 9, 0, fun _ => none, fun _ => none, v, false⟩

/-- A call that has failed, say with a wrong command. -/
def failedCall : Call := ⟨.x64, false, 77, 0, fun _ => none, fun _ => none, -1, true⟩

/-- The full claim is false: the same call, with the same result 100, which is a process, is shown as a group if
the call before it has failed; and a result that is a group is shown as a process after one that has not. -/
theorem history_counterexample :
    (trace 0 [failedCall, getownCall 100]).map (·.kind) = [.decimal, .pgid]
    ∧ (trace 0 [getownCall 100]).map (·.kind) = [.tgid]
    ∧ (trace 0 [getownCall (-100)]).map (·.kind) = [.tgid] := by decide

/-! ## When the argument is shown -/

/-- **Arguments taken from the caller are shown when the call begins**, once, whether or not the call ever
ends, and whatever it leaves in memory. -/
theorem input_early (p : Int) (c : Call) (h : TakesInput c.is64 (c.cmd % 2 ^ 32)) :
    ∃ a, (run p c).early = [a] ∧ (run p c).late = []
      ∧ ∀ (after' : Mem) (rval' : Int) (failed' : Bool),
          (run p { c with after := after', rval := rval', failed := failed' }).early = [a] := by
  obtain ⟨pers, is64, cmd, arg, before, after, rval, failed⟩ := c
  simp only [TakesInput, valueCommands, setLock, setLockWide, setOwnerEx, setLock64, List.mem_cons, List.not_mem_nil,
    or_false] at h
  simp only [run, sysFunc, printFcntl, rvalAt, printFlock, printOwner, fetch] at *
  rcases h with (h | h | h | h | h | h | h | h | h | h | h) | (h | h) | (h | h) | h | ⟨h64, (h | h)⟩ <;>
    first
    | (subst h64; simp [h, done])
    | (cases is64 <;> simp [h, done])

/-- **Memory that the call fills is shown when it has ended**, once, from what is there then, whatever was there
before. -/
theorem output_late (p : Int) (c : Call) (h : FillsMemory c.is64 (c.cmd % 2 ^ 32)) :
    ∃ a, (run p c).early = [] ∧ (run p c).late = [a]
      ∧ (∀ before', (run p { c with before := before' }).late = [a])
      ∧ (c.failed = true → a = .addr c.arg) := by
  obtain ⟨pers, is64, cmd, arg, before, after, rval, failed⟩ := c
  simp only [FillsMemory, getLock, getLockWide, getOwnerEx, getLock64, List.mem_cons, List.not_mem_nil,
    or_false] at h
  simp only [run, sysFunc, printFcntl, rvalAt, printFlock, printOwner, fetch] at *
  rcases h with h | h | h | ⟨h64, h⟩ <;>
    first
    | (subst h64; cases failed <;> cases pers <;> simp [h, done, again, layout])
    | (cases is64 <;> cases failed <;> cases pers <;> simp [h, done, again, layout])

/-- **A command without an argument is shown without one**, and so is nothing else. -/
theorem no_argument (p : Int) (c : Call) :
    ((run p c).early = [] ∧ (run p c).late = []) ↔ c.cmd % 2 ^ 32 ∈ noArgument := by
  constructor
  · intro h
    by_cases hi : TakesInput c.is64 (c.cmd % 2 ^ 32)
    · obtain ⟨a, ha, _⟩ := input_early p c hi
      rw [ha] at h; simp at h
    by_cases ho : FillsMemory c.is64 (c.cmd % 2 ^ 32)
    · obtain ⟨a, _, ha, _⟩ := output_late p c ho
      rw [ha] at h; simp at h
    apply Classical.byContradiction
    intro hn
    simp only [TakesInput, FillsMemory, valueCommands, setLock, setLockWide, setOwnerEx, setLock64, getLock,
      getLockWide, getOwnerEx, getLock64, noArgument, List.mem_cons, List.not_mem_nil, or_false, not_or, not_and] at hi ho hn
    have e : ∀ ph, sysFunc ph c p = ([.hex c.arg], done) := by
      intro ph
      unfold sysFunc printFcntl
      cases h64 : c.is64 with
      | false => simp [hi, ho, hn]
      | true =>
        have hi' := hi; have ho' := ho
        simp [h64] at hi' ho'
        simp [hi', ho', hn]
    simp [run, e, done] at h
  · intro h
    obtain ⟨pers, is64, cmd, arg, before, after, rval, failed⟩ := c
    simp only [noArgument, List.mem_cons, List.not_mem_nil, or_false] at h
    simp only [run, sysFunc, printFcntl, rvalAt] at *
    rcases h with h | h | h | h | h | h | h <;> cases is64 <;> cases failed <;> simp [h, done, again] <;>
      (by_cases hr : rval = 0 <;> simp [hr])

/-- Any other command is shown with its argument as a hexadecimal number, when it begins. -/
theorem other_command (p : Int) (c : Call) (hi : ¬ TakesInput c.is64 (c.cmd % 2 ^ 32))
    (ho : ¬ FillsMemory c.is64 (c.cmd % 2 ^ 32)) (hn : c.cmd % 2 ^ 32 ∉ noArgument) :
    run p c = ⟨[.hex c.arg], [], .decimal, none⟩ := by
  simp only [TakesInput, FillsMemory, valueCommands, setLock, setLockWide, setOwnerEx, setLock64, getLock,
    getLockWide, getOwnerEx, getLock64, noArgument, List.mem_cons, List.not_mem_nil, or_false, not_or, not_and] at hi ho hn
  have e : ∀ ph, sysFunc ph c p = ([.hex c.arg], done) := by
    intro ph
    unfold sysFunc printFcntl
    cases h64 : c.is64 with
    | false => simp [hi, ho, hn]
    | true =>
      have hi' := hi; have ho' := ho
      simp [h64] at hi' ho'
      simp [hi', ho', hn]
  simp [run, e, done]

/-- A signed number of `n` bits that the register holds in its low bits. -/
def LowBits (n : Nat) (arg : Nat) (v : Int) : Prop :=
  v % 2 ^ n = (arg : Int) % 2 ^ n ∧ -2 ^ (n - 1) ≤ v ∧ v < 2 ^ (n - 1)

theorem toInt_low (v : Nat) : LowBits 32 v (toInt v) := by
  unfold LowBits toInt
  simp only [Nat.reducePow, Nat.reduceSub, Int.reducePow]
  split <;> omega

theorem toLong_low (v : Nat) : LowBits 64 v (toLong v) := by
  unfold LowBits toLong
  simp only [Nat.reducePow, Nat.reduceSub, Int.reducePow]
  split <;> omega

/-- **An argument that is a number is shown as that number**, with what it means: 64 bits of it, or the 32 bits
that the kernel looks at, signed for owners, descriptors and signals. -/
theorem value_shown (p : Int) (c : Call) :
    (c.cmd % 2 ^ 32 = 2 → (run p c).early = [.fdFlags (c.arg % 2 ^ 32)])
    ∧ (c.cmd % 2 ^ 32 = 4 → (run p c).early = [.openModes (c.arg % 2 ^ 32)])
    ∧ (c.cmd % 2 ^ 32 = 8 → ∃ v, (run p c).early = [.ownerId v] ∧ LowBits 32 c.arg v)
    ∧ (c.cmd % 2 ^ 32 = 10 → ∃ v, (run p c).early = [.signal v] ∧ LowBits 32 c.arg v)
    ∧ (c.cmd % 2 ^ 32 = 1027 → ∃ v, (run p c).early = [.fd v] ∧ LowBits 32 c.arg v)
    ∧ (c.cmd % 2 ^ 32 ∈ [0, 1030, 1031] → ∃ v, (run p c).early = [.number v] ∧ LowBits 64 c.arg v)
    ∧ (c.cmd % 2 ^ 32 = 1024 → (run p c).early = [.lease c.arg])
    ∧ (c.cmd % 2 ^ 32 = 1026 → (run p c).early = [.notify c.arg])
    ∧ (c.cmd % 2 ^ 32 = 1033 → (run p c).early = [.seals c.arg]) := by
  refine ⟨?_, ?_, ?_, ?_, ?_, ?_, ?_, ?_, ?_⟩
  · intro h; cases h64 : c.is64 <;> simp [run, sysFunc, printFcntl, h, h64, done]
  · intro h; cases h64 : c.is64 <;> simp [run, sysFunc, printFcntl, h, h64, done]
  · intro h; refine ⟨_, ?_, toInt_low _⟩; cases h64 : c.is64 <;> simp [run, sysFunc, printFcntl, h, h64, done]
  · intro h; refine ⟨_, ?_, toInt_low _⟩; cases h64 : c.is64 <;> simp [run, sysFunc, printFcntl, h, h64, done]
  · intro h; refine ⟨_, ?_, toInt_low _⟩; cases h64 : c.is64 <;> simp [run, sysFunc, printFcntl, h, h64, done]
  · intro h
    simp only [List.mem_cons, List.not_mem_nil, or_false] at h
    refine ⟨_, ?_, toLong_low _⟩
    rcases h with h | h | h <;> cases h64 : c.is64 <;> simp [run, sysFunc, printFcntl, h, h64, done]
  · intro h; cases h64 : c.is64 <;> simp [run, sysFunc, printFcntl, h, h64, done]
  · intro h; cases h64 : c.is64 <;> simp [run, sysFunc, printFcntl, h, h64, done]
  · intro h; cases h64 : c.is64 <;> simp [run, sysFunc, printFcntl, h, h64, done]

example : (run 0 ⟨.x64, false, 8, 2 ^ 64 - 5, fun _ => none, fun _ => none, 0, false⟩).early = [.ownerId (-5)] := by decide

/-! ## What is shown of memory -/

/-- The members of a lock in memory: two 16-bit ones, then the start and the length with the padding of the
layout, then the pid.  On a 64-bit machine both structures have 64-bit offsets; on i386 the narrow one has 32-bit
offsets and the wide one has 64-bit offsets without padding. -/
def lockOf (p : Pers) (wide : Bool) (B : Nat → Nat) (withPid : Bool) : Arg :=
  match p, wide with
  | .x64, _ => .lock (sle B 0 2) (sle B 2 2) (sle B 8 8) (sle B 16 8) (if withPid then some (sle B 24 4) else none)
  | .i386, false => .lock (sle B 0 2) (sle B 2 2) (sle B 4 4) (sle B 8 4) (if withPid then some (sle B 12 4) else none)
  | .i386, true => .lock (sle B 0 2) (sle B 2 2) (sle B 4 8) (sle B 12 8) (if withPid then some (sle B 20 4) else none)

/-- The size of a lock in memory. -/
def lockSize (p : Pers) (wide : Bool) : Nat :=
  match p, wide with
  | .x64, _ => 32
  | .i386, false => 16
  | .i386, true => 24

theorem printFlock_holds (ph : Phase) (c : Call) (wide getlk : Bool) (B : Nat → Nat) (h0 : c.arg ≠ 0)
    (hf : ph = .entering ∨ c.failed = false)
    (hm : Holds (if ph = .entering then c.before else c.after) c.arg (lockSize c.pers wide) B) :
    printFlock ph c wide getlk = lockOf c.pers wide B getlk := by
  have hc : ¬ (c.arg = 0 ∨ (ph = .exiting ∧ c.failed = true)) := by
    rcases hf with hf | hf <;> simp [h0, hf]
  obtain ⟨l, hl, hg⟩ := umoven_holds (m := if ph = .entering then c.before else c.after) (B := B)
    (n := lockSize c.pers wide) (a := c.arg) (o := 0) (by
      intro i hi
      rw [Nat.zero_add]
      exact hm i hi)
  simp only [Nat.zero_add] at hg
  have hfe : ∀ n, fetch ph c n = umoven (if ph = .entering then c.before else c.after) c.arg n := fun n => by
    unfold fetch
    rw [if_neg hc]
  unfold printFlock
  simp only [hfe]
  cases hp : c.pers <;> cases wide <;>
    (simp only [hp, lockSize] at hl hg
     simp only [layout, hl, lockOf]
     simp only [sword_sle (n := 2) (o := 0) hg (by omega) (by omega), sword_sle (n := 2) (o := 2) hg (by omega) (by omega)])
  · rw [sword_sle (n := 8) (o := 8) hg (by omega) (by omega), sword_sle (n := 8) (o := 16) hg (by omega) (by omega),
      sword_sle (n := 4) (o := 24) hg (by omega) (by omega)]
  · rw [sword_sle (n := 8) (o := 8) hg (by omega) (by omega), sword_sle (n := 8) (o := 16) hg (by omega) (by omega),
      sword_sle (n := 4) (o := 24) hg (by omega) (by omega)]
  · rw [sword_sle (n := 4) (o := 4) hg (by omega) (by omega), sword_sle (n := 4) (o := 8) hg (by omega) (by omega),
      sword_sle (n := 4) (o := 12) hg (by omega) (by omega)]
  · rw [sword_sle (n := 8) (o := 4) hg (by omega) (by omega), sword_sle (n := 8) (o := 12) hg (by omega) (by omega),
      sword_sle (n := 4) (o := 20) hg (by omega) (by omega)]

/-- **A lock to be set is shown as it is in memory when the call begins**, all of its members but the pid. -/
theorem set_lock_shown (p : Int) (c : Call) (wide : Bool) (B : Nat → Nat)
    (h : c.cmd % 2 ^ 32 ∈ (if wide then setLockWide else setLock) ∨ (wide = true ∧ c.is64 = true ∧ c.cmd % 2 ^ 32 ∈ setLock64))
    (h0 : c.arg ≠ 0) (hm : Holds c.before c.arg (lockSize c.pers wide) B) :
    (run p c).early = [lockOf c.pers wide B false] := by
  have e := printFlock_holds .entering c wide false B h0 (Or.inl rfl) (by simpa using hm)
  rw [← e]
  cases wide <;>
    simp only [setLock, setLockWide, setLock64, List.mem_cons, List.not_mem_nil, or_false, Bool.false_eq_true, if_false,
      if_true, false_and, true_and] at h
  · rcases h with h | h <;> cases h64 : c.is64 <;> simp [run, sysFunc, printFcntl, h, h64, done]
  · rcases h with (h | h) | ⟨h64, (h | h)⟩
    · cases h64 : c.is64 <;> simp [run, sysFunc, printFcntl, h, h64, done]
    · cases h64 : c.is64 <;> simp [run, sysFunc, printFcntl, h, h64, done]
    · simp [run, sysFunc, h, h64, done]
    · simp [run, sysFunc, h, h64, done]

/-- **A lock that has been got is shown as it is in memory when the call has ended**, with the pid. -/
theorem get_lock_shown (p : Int) (c : Call) (wide : Bool) (B : Nat → Nat)
    (h : c.cmd % 2 ^ 32 ∈ (if wide then getLockWide else getLock) ∨ (wide = true ∧ c.is64 = true ∧ c.cmd % 2 ^ 32 ∈ getLock64))
    (h0 : c.arg ≠ 0) (hf : c.failed = false) (hm : Holds c.after c.arg (lockSize c.pers wide) B) :
    (run p c).late = [lockOf c.pers wide B true] := by
  have e := printFlock_holds .exiting c wide true B h0 (Or.inr hf) (by simpa using hm)
  rw [← e]
  cases wide <;>
    simp only [getLock, getLockWide, getLock64, List.mem_cons, List.not_mem_nil, or_false, Bool.false_eq_true, if_false,
      if_true, false_and, true_and] at h
  · cases h64 : c.is64 <;> simp [run, sysFunc, printFcntl, h, h64, done, again]
  · rcases h with h | ⟨h64, h⟩
    · cases h64 : c.is64 <;> simp [run, sysFunc, printFcntl, h, h64, done, again]
    · simp [run, sysFunc, h, h64, again]

/-- What the number of an owner names, given the type: 0 a thread, 1 a process, 2 a group of processes. -/
def namedBy (t : Int) (k : PidKind) : Prop :=
  (t = 0 ∧ k = .tid) ∨ (t = 1 ∧ k = .tgid) ∨ (t = 2 ∧ k = .pgid) ∨ (t ≠ 0 ∧ t ≠ 1 ∧ t ≠ 2 ∧ k = .none)

theorem pidKind_named (t : Int) : namedBy t (pidKind t) := by
  unfold namedBy pidKind
  repeat' split
  all_goals simp_all

theorem printOwner_holds (ph : Phase) (c : Call) (B : Nat → Nat) (h0 : c.arg ≠ 0)
    (hf : ph = .entering ∨ c.failed = false)
    (hm : Holds (if ph = .entering then c.before else c.after) c.arg 8 B) :
    ∃ k, printOwner ph c = .owner (sle B 0 4) (sle B 4 4) k ∧ namedBy (sle B 0 4) k := by
  have hc : ¬ (c.arg = 0 ∨ (ph = .exiting ∧ c.failed = true)) := by
    rcases hf with hf | hf <;> simp [h0, hf]
  obtain ⟨l, hl, hg⟩ := umoven_holds (m := if ph = .entering then c.before else c.after) (B := B)
    (n := 8) (a := c.arg) (o := 0) (by
      intro i hi
      rw [Nat.zero_add]
      exact hm i hi)
  simp only [Nat.zero_add] at hg
  refine ⟨pidKind (sle B 0 4), ?_, pidKind_named _⟩
  unfold printOwner fetch
  rw [if_neg hc, hl]
  simp only
  rw [sword_sle (n := 4) (o := 0) hg (by omega) (by omega), sword_sle (n := 4) (o := 4) hg (by omega) (by omega)]

/-- **Owners**: the type, the number, and what the number names; of the time when it begins for F_SETOWN_EX and of
the time when it has ended for F_GETOWN_EX. -/
theorem owner_shown (p : Int) (c : Call) (B : Nat → Nat) (h0 : c.arg ≠ 0) :
    (c.cmd % 2 ^ 32 ∈ setOwnerEx → Holds c.before c.arg 8 B →
      ∃ k, (run p c).early = [.owner (sle B 0 4) (sle B 4 4) k] ∧ namedBy (sle B 0 4) k)
    ∧ (c.cmd % 2 ^ 32 ∈ getOwnerEx → c.failed = false → Holds c.after c.arg 8 B →
      ∃ k, (run p c).late = [.owner (sle B 0 4) (sle B 4 4) k] ∧ namedBy (sle B 0 4) k) := by
  constructor
  · intro h hm
    obtain ⟨k, e, hk⟩ := printOwner_holds .entering c B h0 (Or.inl rfl) (by simpa using hm)
    refine ⟨k, ?_, hk⟩
    rw [← e]
    simp only [setOwnerEx, List.mem_cons, List.not_mem_nil, or_false] at h
    cases h64 : c.is64 <;> simp [run, sysFunc, printFcntl, h, h64, done]
  · intro h hf hm
    obtain ⟨k, e, hk⟩ := printOwner_holds .exiting c B h0 (Or.inr hf) (by simpa using hm)
    refine ⟨k, ?_, hk⟩
    rw [← e]
    simp only [getOwnerEx, List.mem_cons, List.not_mem_nil, or_false] at h
    cases h64 : c.is64 <;> simp [run, sysFunc, printFcntl, h, h64, done, again]

/-! ## The result -/

/-- **The result is shown as a descriptor exactly for the two commands that make one.** -/
theorem fd_result (p : Int) (c : Call) :
    (run p c).kind = .fd ↔ c.cmd % 2 ^ 32 = 0 ∨ c.cmd % 2 ^ 32 = 1030 := by
  constructor
  · intro h
    by_cases h0 : c.cmd % 2 ^ 32 = 0
    · exact Or.inl h0
    by_cases h1 : c.cmd % 2 ^ 32 = 1030
    · exact Or.inr h1
    exfalso
    have e : ∀ ph, (sysFunc ph c p).2.kind ≠ .fd := by
      intro ph
      have e1 : (printFcntl ph c p).2.kind ≠ .fd := by
        simp only [printFcntl, h0, h1, or_self, if_false]
        repeat' apply choice (fun x : List Arg × Ret => x.2.kind ≠ .fd)
        all_goals first
          | (simp [done, again]; done)
          | (simp only; split <;> simp)
      unfold sysFunc
      repeat' split
      all_goals first
        | exact e1
        | simp [done, again]
    unfold run at h
    simp only at h
    split at h
    · exact e _ h
    · exact e _ h
  · intro h
    rcases h with h | h <;> cases h64 : c.is64 <;> simp [run, sysFunc, printFcntl, h, h64]

/-- **The result is a hexadecimal number exactly when it is explained by flags or a lease**; the result of F_GETSIG is
explained and decimal. -/
theorem hex_result (p : Int) (c : Call) :
    (run p c).kind = .hex ↔ ∃ v, (run p c).aux = some (.fdFlags v) ∨ (run p c).aux = some (.openModes v)
      ∨ (run p c).aux = some (.lease v) ∨ (run p c).aux = some (.seals v) := by
  have e : ∀ ph, (sysFunc ph c p).2.kind = .hex ↔ ∃ v, (sysFunc ph c p).2.aux = some (.fdFlags v)
      ∨ (sysFunc ph c p).2.aux = some (.openModes v)
      ∨ (sysFunc ph c p).2.aux = some (.lease v) ∨ (sysFunc ph c p).2.aux = some (.seals v) := by
    intro ph
    have e1 : (printFcntl ph c p).2.kind = .hex ↔ ∃ v, (printFcntl ph c p).2.aux = some (.fdFlags v)
      ∨ (printFcntl ph c p).2.aux = some (.openModes v)
      ∨ (printFcntl ph c p).2.aux = some (.lease v) ∨ (printFcntl ph c p).2.aux = some (.seals v) := by
      simp only [printFcntl]
      repeat' apply choice (fun x : List Arg × Ret => x.2.kind = .hex ↔ ∃ v, x.2.aux = some (.fdFlags v)
        ∨ x.2.aux = some (.openModes v) ∨ x.2.aux = some (.lease v) ∨ x.2.aux = some (.seals v))
      all_goals first
        | (simp [done, again]; done)
        | (simp only; split <;> simp)
    unfold sysFunc
    repeat' split
    all_goals first
      | exact e1
      | simp [done, again]
  unfold run
  simp only
  split
  · exact e _
  · exact e _

/-- What the explanation explains. -/
def auxOf (cmd : Nat) (v : Int) : Option Aux :=
  if cmd = 1 then some (.fdFlags v) else if cmd = 3 then some (.openModes v) else if cmd = 1025 then some (.lease v)
  else if cmd = 1034 then some (.seals v) else if cmd = 11 then some (.signal v) else none

/-- **The explanation of the result** is there for the five commands whose result is a set of flags, a lease or a
signal, if the call has succeeded (a result of zero has one only for F_GETFL and F_GETLEASE, where zero means
something), and it explains the result of this very call. -/
theorem explained (p : Int) (c : Call) :
    (run p c).aux =
      if c.failed = true ∨ (c.rval = 0 ∧ c.cmd % 2 ^ 32 ≠ 3 ∧ c.cmd % 2 ^ 32 ≠ 1025) then none
      else auxOf (c.cmd % 2 ^ 32) c.rval := by
  by_cases h64 : c.is64 = true ∧ c.cmd % 2 ^ 32 ∈ setLock64 ++ getLock64
  · obtain ⟨h6, h⟩ := h64
    simp only [setLock64, getLock64, List.cons_append, List.nil_append, List.mem_cons, List.not_mem_nil, or_false] at h
    rcases h with h | h | h <;> simp [run, sysFunc, h, h6, auxOf, done, again]
  have e : ∀ ph, sysFunc ph c p = printFcntl ph c p := fun ph => by
    apply run_is64
    cases h6 : c.is64 with
    | false => exact Or.inl rfl
    | true => exact Or.inr fun hm => h64 ⟨h6, hm⟩
  unfold run
  rw [e, e]
  by_cases hA : c.cmd % 2 ^ 32 ∈ [1, 3, 1025, 1034, 11]
  · simp only [List.mem_cons, List.not_mem_nil, or_false] at hA
    rcases hA with h | h | h | h | h <;> cases hf : c.failed <;> by_cases hr : c.rval = 0 <;>
      simp [printFcntl, h, hf, hr, auxOf, again, rvalAt]
  · simp only [List.mem_cons, List.not_mem_nil, or_false, not_or] at hA
    obtain ⟨a1, a2, a3, a4, a5⟩ := hA
    have en : ∀ ph, (printFcntl ph c p).2.aux = none := by
      intro ph
      simp only [printFcntl, a1, a2, a3, a4, a5, if_false]
      repeat' apply choice (fun x : List Arg × Ret => x.2.aux = none)
      all_goals rfl
    simp only [auxOf, a1, a2, a3, a4, a5, if_false, ite_self]
    split
    · exact en _
    · exact en _

/-! ## Cases -/

/-- A structure of a lock: type 1, whence 0, start 5, length −1, pid 0. -/
def lockBytes : List Nat :=
  [1, 0, 0, 0, 0, 0, 0, 0, 5, 0, 0, 0, 0, 0, 0, 0, 255, 255, 255, 255, 255, 255, 255, 255, 0, 0, 0, 0, 0, 0, 0, 0]

/-- F_SETLKW of that structure at address 4096, after which memory is not readable. -/
def setlkw : Call := ⟨.x64, false, 7, 4096, fun a => lockBytes[a - 4096]?, fun _ => none, 0, false⟩

example : TakesInput setlkw.is64 (setlkw.cmd % 2 ^ 32) := by unfold TakesInput; decide
example : Holds setlkw.before setlkw.arg (lockSize setlkw.pers false) (fun i => lockBytes.getD i 0) := by
  intro i hi
  simp only [lockSize, setlkw] at *
  match i, hi with
  | n, hn => revert n; decide
example : (run 0 setlkw).early = [.lock 1 0 5 (-1) none] := by decide
example : FillsMemory false 5 ∧ FillsMemory true 12 ∧ ¬ FillsMemory false 12 := by
  unfold FillsMemory; decide
example : (run (-1) ⟨.i386, true, 12, 4096, fun _ => none, fun a => lockBytes[a - 4096]?, 0, false⟩).late
    = [.lock 1 0 21474836480 (-4294967296) (some (-1))] := by decide
example : (run 0 ⟨.x64, false, 1, 0, fun _ => none, fun _ => none, 1, false⟩) = ⟨[], [], .hex, some (.fdFlags 1)⟩ := by decide
example : (run 0 ⟨.x64, false, 16, 16, fun _ => none, fun a => [2, 0, 0, 0, 7, 0, 0, 0][a - 16]?, 0, false⟩).late
    = [.owner 2 7 .pgid] := by decide

end Strace.Fcntl
