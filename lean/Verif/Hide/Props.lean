import Verif.Hide.Model
import Mathlib.Tactic.Tauto
/-!
# What is visible of the process strace starts: specification and proofs

The specification speaks about the history of calls alone: which of them are exec calls, which succeeded and which pass
the filters.  It does not mention the flags.
-/
namespace Strace.Hide

/-! ## Specification -/

/-- call `j` of the history runs a new program -/
def ExecOk (cs : List Call) (j : Nat) : Prop :=
  ∃ c, cs[j]? = some c ∧ c.kind = .exec ∧ c.ok = true

/-- the program has been started before call `i` -/
def Running (cs : List Call) (i : Nat) : Prop := ∃ j, j < i ∧ ExecOk cs j

/-- there is an exec call before call `i` that does not pass the filters, and no call between passes them -/
def AfterUntracedExec (cs : List Call) (i : Nat) : Prop :=
  ∃ j, j < i ∧ (∃ c, cs[j]? = some c ∧ c.kind = .exec ∧ c.traced = false) ∧
    ∀ k, j < k → k < i → ∀ d, cs[k]? = some d → d.traced = false

/-- no call before call `i` passes the filters -/
def Quiet (cs : List Call) (i : Nat) : Prop := ∀ k, k < i → ∀ d, cs[k]? = some d → d.traced = false

/-! ## Indices -/

theorem running_zero (cs : List Call) : ¬ Running cs 0 := fun ⟨_, h, _⟩ => by omega

theorem after_zero (cs : List Call) : ¬ AfterUntracedExec cs 0 := fun ⟨_, h, _⟩ => by omega

theorem quiet_zero (cs : List Call) : Quiet cs 0 := fun k h => by omega

theorem running_succ (c : Call) (cs : List Call) (i : Nat) :
    Running (c :: cs) (i + 1) ↔ (c.kind = .exec ∧ c.ok = true) ∨ Running cs i := by
  constructor
  · rintro ⟨j, hj, d, hd, hk⟩
    cases j with
    | zero => simp only [List.getElem?_cons_zero, Option.some.injEq] at hd; subst hd; exact Or.inl hk
    | succ j => exact Or.inr ⟨j, by omega, d, by simpa using hd, hk⟩
  · rintro (h | ⟨j, hj, d, hd, hk⟩)
    · exact ⟨0, by omega, c, by simp, h⟩
    · exact ⟨j + 1, by omega, d, by simpa using hd, hk⟩

theorem quiet_succ (c : Call) (cs : List Call) (i : Nat) :
    Quiet (c :: cs) (i + 1) ↔ c.traced = false ∧ Quiet cs i := by
  constructor
  · intro h
    exact ⟨h 0 (by omega) c (by simp), fun k hk d hd => h (k + 1) (by omega) d (by simpa using hd)⟩
  · rintro ⟨h0, h⟩ k hk d hd
    cases k with
    | zero => simp only [List.getElem?_cons_zero, Option.some.injEq] at hd; subst hd; exact h0
    | succ k => exact h k (by omega) d (by simpa using hd)

theorem after_succ (c : Call) (cs : List Call) (i : Nat) :
    AfterUntracedExec (c :: cs) (i + 1) ↔
      (c.kind = .exec ∧ c.traced = false ∧ Quiet cs i) ∨ AfterUntracedExec cs i := by
  constructor
  · rintro ⟨j, hj, ⟨d, hd, hk, ht⟩, hq⟩
    cases j with
    | zero =>
      simp only [List.getElem?_cons_zero, Option.some.injEq] at hd; subst hd
      exact Or.inl ⟨hk, ht, fun k hk' e he => hq (k + 1) (by omega) (by omega) e (by simpa using he)⟩
    | succ j =>
      exact Or.inr ⟨j, by omega, ⟨d, by simpa using hd, hk, ht⟩,
        fun k h1 h2 e he => hq (k + 1) (by omega) (by omega) e (by simpa using he)⟩
  · rintro (⟨hk, ht, hq⟩ | ⟨j, hj, ⟨d, hd, hk, ht⟩, hq⟩)
    · refine ⟨0, by omega, ⟨c, by simp, hk, ht⟩, fun k h1 h2 e he => ?_⟩
      cases k with
      | zero => omega
      | succ k => exact hq k (by omega) e (by simpa using he)
    · refine ⟨j + 1, by omega, ⟨d, by simpa using hd, hk, ht⟩, fun k h1 h2 e he => ?_⟩
      cases k with
      | zero => omega
      | succ k => exact hq k (by omega) (by omega) e (by simpa using he)

/-! ## The flags -/

/-- what the two flags stand for: calls shown, given that `i` calls of the rest of the history came before -/
def Open (s : St) (cs : List Call) (i : Nat) : Prop :=
  Running cs i ∨ AfterUntracedExec cs i ∨
    (s.hide = false ∧ (s.check = false ∨ Quiet cs i))

/-- one call -/
theorem call_facts (dc de : Bool) (c : Call) (real : List Char) (s : St) :
    (call dc de c real s).2.shown = (c.traced && (!s.hide || decide (c.kind = .exec))) ∧
    (call dc de c real s).2.injected = (c.traced && !s.hide && c.inj) ∧
    (call dc de c real s).2.detached = (c.ok && decide (c.kind = .exec) && de && !s.skip) ∧
    (call dc de c real s).2.result =
      ((call dc de c real s).2.shown && !(call dc de c real s).2.detached) ∧
    ((call dc de c real s).2.detached = false →
      ((call dc de c real s).1.hide = false ↔
        (c.kind = .exec ∧ c.ok = true) ∨ (c.kind = .exec ∧ c.traced = false) ∨
          (s.hide = false ∧ (s.check = false ∨ c.traced = false))) ∧
      ((call dc de c real s).1.hide = false → ((call dc de c real s).1.check = false ↔
        (c.kind = .exec ∧ c.ok = true) ∨ (s.hide = false ∧ s.check = false))) ∧
      (call dc de c real s).1.skip = (s.skip && !(c.ok && decide (c.kind = .exec) && de)) ∧
      (call dc de c real s).1.uerr = (if (call dc de c real s).2.result then c.err else s.uerr) ∧
      (call dc de c real s).1.comm =
        (if c.kind ≠ .other ∧ s.uerr = 0 ∧ dc = true then renamed c real else s.comm)) := by
  obtain ⟨k, t, j, ok, e, n⟩ := c
  obtain ⟨h, ch, f, sk, ue, cm⟩ := s
  by_cases hu : ue = 0 <;>
  cases k <;> cases t <;> cases ok <;> cases h <;> cases ch <;> cases sk <;> cases de <;> cases dc <;>
    simp [call, enter, execStop, leave, hu]

theorem open_succ (dc de : Bool) (c : Call) (cs : List Call) (real : List Char) (s : St) (i : Nat)
    (hd : (call dc de c real s).2.detached = false) :
    Open s (c :: cs) (i + 1) ↔ Open (call dc de c real s).1 cs i := by
  obtain ⟨_, _, _, _, hf⟩ := call_facts dc de c real s
  obtain ⟨hh, hc, _⟩ := hf hd
  unfold Open
  rw [running_succ, after_succ, quiet_succ]
  constructor
  · rintro ((h | h) | (⟨h1, h2, h3⟩ | h) | ⟨h1, h2⟩)
    · exact Or.inr (Or.inr ⟨hh.mpr (Or.inl h), Or.inl ((hc (hh.mpr (Or.inl h))).mpr (Or.inl h))⟩)
    · exact Or.inl h
    · exact Or.inr (Or.inr ⟨hh.mpr (Or.inr (Or.inl ⟨h1, h2⟩)), Or.inr h3⟩)
    · exact Or.inr (Or.inl h)
    · rcases h2 with h2 | ⟨h2, h3⟩
      · have := hh.mpr (Or.inr (Or.inr ⟨h1, Or.inl h2⟩))
        exact Or.inr (Or.inr ⟨this, Or.inl ((hc this).mpr (Or.inr ⟨h1, h2⟩))⟩)
      · exact Or.inr (Or.inr ⟨hh.mpr (Or.inr (Or.inr ⟨h1, Or.inr h2⟩)), Or.inr h3⟩)
  · rintro (h | h | ⟨h1, h2⟩)
    · exact Or.inl (Or.inr h)
    · exact Or.inr (Or.inl (Or.inr h))
    · rcases h2 with h2 | h2
      · rcases (hc h1).mp h2 with h | h
        · exact Or.inl (Or.inl h)
        · exact Or.inr (Or.inr ⟨h.1, Or.inl h.2⟩)
      · rcases hh.mp h1 with h | h | ⟨h, h' | h'⟩
        · exact Or.inl (Or.inl h)
        · exact Or.inr (Or.inl (Or.inl ⟨h.1, h.2, h2⟩))
        · exact Or.inr (Or.inr ⟨h, Or.inl h'⟩)
        · exact Or.inr (Or.inr ⟨h, Or.inr ⟨h', h2⟩⟩)

theorem open_zero (s : St) (cs : List Call) : Open s cs 0 ↔ s.hide = false := by
  unfold Open
  simp [running_zero, after_zero, quiet_zero]

theorem run_cons (dc de : Bool) (a : Call) (cs : List Call) (real : List Char) (s : St) :
    run dc de (a :: cs) real s =
      if (call dc de a real s).2.detached = true then ([(call dc de a real s).2], (call dc de a real s).1, renamed a real)
      else ((call dc de a real s).2 :: (run dc de cs (renamed a real) (call dc de a real s).1).1,
        (run dc de cs (renamed a real) (call dc de a real s).1).2) := by
  rw [run]

theorem skip_step (k : Kind) (ok skip : Bool) :
    (skip && !(ok && decide (k = .exec) && true)) = false ↔ skip = false ∨ (k = .exec ∧ ok = true) := by
  cases k <;> cases ok <;> cases skip <;> simp

/-- what comes of every call of a history -/
theorem run_facts (dc de : Bool) (cs : List Call) : ∀ (real : List Char) (s : St) (i : Nat) (c : Call) (o : Seen),
    cs[i]? = some c → (run dc de cs real s).1[i]? = some o →
    (o.shown = true ↔ c.traced = true ∧ (c.kind = .exec ∨ Open s cs i)) ∧
    (o.injected = true ↔ c.traced = true ∧ c.inj = true ∧ Open s cs i) ∧
    (o.detached = true ↔ de = true ∧ ExecOk cs i ∧ (s.skip = false ∨ Running cs i)) ∧
    (o.result = true ↔ o.shown = true ∧ o.detached = false) := by
  induction cs with
  | nil => intro real s i c o h; simp at h
  | cons a cs ih =>
    intro real s i c o hc ho
    obtain ⟨f1, f2, f3, f4, f5⟩ := call_facts dc de a real s
    cases i with
    | zero =>
      simp only [List.getElem?_cons_zero, Option.some.injEq] at hc
      subst hc
      have : o = (call dc de a real s).2 := by
        rw [run_cons] at ho
        by_cases hd : (call dc de a real s).2.detached = true
        · rw [if_pos hd] at ho; simpa using ho.symm
        · rw [if_neg hd] at ho; simpa using ho.symm
      subst this
      have hr := running_zero (a :: cs)
      have he : ExecOk (a :: cs) 0 ↔ a.kind = .exec ∧ a.ok = true := by
        simp [ExecOk]
      rw [open_zero, f1, f2, f4, he]
      refine ⟨?_, ?_, ?_, ?_⟩
      · simp; tauto
      · simp; tauto
      · rw [f3]; simp [hr]; tauto
      · rw [f1]; simp
    | succ i =>
      simp only [List.getElem?_cons_succ] at hc
      rw [run_cons] at ho
      by_cases hd : (call dc de a real s).2.detached = true
      · rw [if_pos hd] at ho; simp at ho
      · rw [if_neg hd] at ho
        simp only [Bool.not_eq_true] at hd
        simp only [List.getElem?_cons_succ] at ho
        obtain ⟨h1, h2, h3, h4⟩ := ih _ _ i c o hc ho
        rw [open_succ dc de a cs real s i hd]
        refine ⟨h1, h2, ?_, h4⟩
        rw [h3, running_succ]
        have he : ExecOk (a :: cs) (i + 1) ↔ ExecOk cs i := by simp [ExecOk]
        rw [he, (f5 hd).2.2.1]
        cases de with
        | false => simp
        | true =>
          rw [skip_step]
          constructor
          · rintro ⟨h, h', (h'' | h'') | h''⟩
            · exact ⟨h, h', Or.inl h''⟩
            · exact ⟨h, h', Or.inr (Or.inl h'')⟩
            · exact ⟨h, h', Or.inr (Or.inr h'')⟩
          · rintro ⟨h, h', h'' | h'' | h''⟩
            · exact ⟨h, h', Or.inl (Or.inl h'')⟩
            · exact ⟨h, h', Or.inl (Or.inr h'')⟩
            · exact ⟨h, h', Or.inr h''⟩

/-! ## C78 -/

/-- **Which calls of the process strace starts are shown**, in full: those that pass the filters and are exec calls, or
come after the program is running, or come after an exec call that does not pass the filters with no call shown in
between. -/
theorem started_shown (dc de : Bool) (cs : List Call) (comm : List Char) (i : Nat) (c : Call) (o : Seen)
    (hc : cs[i]? = some c) (ho : (run dc de cs comm (started comm)).1[i]? = some o) :
    (o.shown = true ↔ c.traced = true ∧ (c.kind = .exec ∨ Running cs i ∨ AfterUntracedExec cs i)) ∧
    (o.result = true ↔ o.shown = true ∧ o.detached = false) := by
  obtain ⟨h1, _, _, h4⟩ := run_facts dc de cs comm (started comm) i c o hc ho
  refine ⟨?_, h4⟩
  rw [h1]; unfold Open; simp [started]

/-- **Which of them are tampered with**: none before the program is running, but for those after an exec call that does
not pass the filters. -/
theorem started_injected (dc de : Bool) (cs : List Call) (comm : List Char) (i : Nat) (c : Call) (o : Seen)
    (hc : cs[i]? = some c) (ho : (run dc de cs comm (started comm)).1[i]? = some o) :
    o.injected = true ↔ c.traced = true ∧ c.inj = true ∧ (Running cs i ∨ AfterUntracedExec cs i) := by
  obtain ⟨_, h2, _, _⟩ := run_facts dc de cs comm (started comm) i c o hc ho
  rw [h2]; unfold Open; simp [started]

/-- **strace's own code is hidden** if the exec calls pass the filters: before the program is running only exec calls are
shown, and nothing is tampered with; after, the filters alone decide. -/
theorem own_code_hidden_partial (dc de : Bool) (cs : List Call) (comm : List Char)
    (hexec : ∀ c ∈ cs, c.kind = .exec → c.traced = true) (i : Nat) (c : Call) (o : Seen)
    (hc : cs[i]? = some c) (ho : (run dc de cs comm (started comm)).1[i]? = some o) :
    (Running cs i → (o.shown = true ↔ c.traced = true) ∧ (o.injected = true ↔ c.traced = true ∧ c.inj = true)) ∧
    (¬ Running cs i → (o.shown = true ↔ c.kind = .exec) ∧ o.injected = false) := by
  have hn : ¬ AfterUntracedExec cs i := by
    rintro ⟨j, _, ⟨d, hd, hk, ht⟩, _⟩
    have := hexec d (List.mem_of_getElem? hd) hk
    rw [this] at ht; cases ht
  have h1 := (started_shown dc de cs comm i c o hc ho).1
  have h2 := started_injected dc de cs comm i c o hc ho
  have h3 := hexec c (List.mem_of_getElem? hc)
  refine ⟨fun hr => ⟨by rw [h1]; tauto, by rw [h2]; tauto⟩, fun hr => ⟨by rw [h1]; tauto, ?_⟩⟩
  rw [← Bool.not_eq_true, h2]; tauto

/-- **The program is seen from its start on**, whatever the filters do with the exec calls. -/
theorem program_seen (dc de : Bool) (cs : List Call) (comm : List Char) (i : Nat) (c : Call) (o : Seen)
    (hc : cs[i]? = some c) (ho : (run dc de cs comm (started comm)).1[i]? = some o) (hr : Running cs i) :
    (o.shown = true ↔ c.traced = true) ∧ (o.injected = true ↔ c.traced = true ∧ c.inj = true) := by
  have h1 := (started_shown dc de cs comm i c o hc ho).1
  have h2 := started_injected dc de cs comm i c o hc ho
  exact ⟨by rw [h1]; tauto, by rw [h2]; tauto⟩

/-- **Every call of a process that is attached to is seen**: the filters alone decide. -/
theorem attached_seen (dc de : Bool) (cs : List Call) (comm : List Char) (i : Nat) (c : Call) (o : Seen)
    (hc : cs[i]? = some c) (ho : (run dc de cs comm (attached comm)).1[i]? = some o) :
    (o.shown = true ↔ c.traced = true) ∧ (o.injected = true ↔ c.traced = true ∧ c.inj = true) := by
  obtain ⟨h1, h2, _, _⟩ := run_facts dc de cs comm (attached comm) i c o hc ho
  have : Open (attached comm) cs i := Or.inr (Or.inr ⟨rfl, Or.inl rfl⟩)
  exact ⟨by rw [h1]; tauto, by rw [h2]; tauto⟩

/-- the state after a history without a detach -/
theorem run_open (dc de : Bool) (cs : List Call) : ∀ (real : List Char) (s : St),
    (∀ o ∈ (run dc de cs real s).1, o.detached = false) →
    ((run dc de cs real s).2.1.hide = false ↔ Open s cs cs.length) := by
  induction cs with
  | nil => intro real s _; rw [List.length_nil, open_zero]; rfl
  | cons a cs ih =>
    intro real s hd
    have hd0 : (call dc de a real s).2.detached = false := by
      apply hd; rw [run_cons]; split <;> simp
    have hrun : run dc de (a :: cs) real s =
        ((call dc de a real s).2 :: (run dc de cs (renamed a real) (call dc de a real s).1).1,
          (run dc de cs (renamed a real) (call dc de a real s).1).2) := by
      rw [run]; simp [hd0]
    rw [hrun] at hd ⊢
    rw [List.length_cons, open_succ dc de a cs real s cs.length hd0]
    exact ih _ _ (fun o ho => hd o (List.mem_cons_of_mem _ ho))

/-- **Signals are hidden with the calls**: a signal that comes after a history of calls is shown exactly if a call that is
not an exec call would be. -/
theorem signal_shown (dc de : Bool) (cs : List Call) (comm : List Char) (inSet : Bool)
    (hd : ∀ o ∈ (run dc de cs comm (started comm)).1, o.detached = false) :
    signalShown inSet (run dc de cs comm (started comm)).2.1 = true ↔
      inSet = true ∧ (Running cs cs.length ∨ AfterUntracedExec cs cs.length) := by
  have := run_open dc de cs comm (started comm) hd
  unfold signalShown
  rw [Bool.and_eq_true, Bool.not_eq_true', this]
  unfold Open; simp [started]; tauto

/-- a failing exec that passes the filters, then a message written by strace, as a history -/
def failing (execTraced : Bool) : List Call :=
  [⟨.other, true, true, true, 0, []⟩, ⟨.exec, execTraced, true, false, 8, []⟩,
   ⟨.other, true, true, true, 0, []⟩, ⟨.other, true, true, true, 0, []⟩]

/-- finding 50: with `-e trace=write`, an exec that fails is followed by a write of strace itself, which is shown and
tampered with; the one after it is hidden again -/
theorem own_code_seen :
    ((run false false (failing false) [] (started [])).1.map fun o => (o.shown, o.injected)) =
      [(false, false), (false, false), (true, true), (false, false)] ∧
    ((run false false (failing true) [] (started [])).1.map fun o => (o.shown, o.injected)) =
      [(false, false), (true, false), (false, false), (false, false)] := by
  decide +kernel

/-- the hypothesis of `own_code_hidden_partial` is met, with two failed attempts before the one that succeeds -/
example :
    let cs : List Call :=
      [⟨.other, true, true, true, 0, []⟩, ⟨.exec, true, true, false, 2, []⟩, ⟨.other, true, true, true, 0, []⟩,
       ⟨.exec, true, true, false, 13, []⟩, ⟨.exec, true, true, true, 0, ['a']⟩, ⟨.other, true, true, true, 0, []⟩,
       ⟨.other, false, true, true, 0, []⟩]
    (∀ c ∈ cs, c.kind = .exec → c.traced = true) ∧
    ((run false false cs [] (started [])).1.map fun o => (o.shown, o.injected)) =
      [(false, false), (true, false), (false, false), (true, false), (true, false), (true, true), (false, false)] := by
  decide +kernel

/-! ## C79 -/

/-- **`-b execve` detaches at the second program of a process strace started, and at the first one of a process it
attached to**; nothing of the tracee is reported after. -/
theorem detach_on_exec (dc de : Bool) (cs : List Call) (comm : List Char) (i : Nat) (c : Call) (o : Seen)
    (hc : cs[i]? = some c) :
    ((run dc de cs comm (started comm)).1[i]? = some o →
      (o.detached = true ↔ de = true ∧ ExecOk cs i ∧ ∃ j, j < i ∧ ExecOk cs j)) ∧
    ((run dc de cs comm (attached comm)).1[i]? = some o →
      (o.detached = true ↔ de = true ∧ ExecOk cs i)) := by
  constructor
  · intro ho
    obtain ⟨_, _, h3, _⟩ := run_facts dc de cs comm (started comm) i c o hc ho
    rw [h3]; simp [started, Running]
  · intro ho
    obtain ⟨_, _, h3, _⟩ := run_facts dc de cs comm (attached comm) i c o hc ho
    rw [h3]; simp [attached]

/-- **Every call up to the detach is reported, and none after**. -/
theorem reported_until_detach (dc de : Bool) (cs : List Call) : ∀ (real : List Char) (s : St) (i : Nat), i < cs.length →
    ((∃ o, (run dc de cs real s).1[i]? = some o) ↔
      ∀ j, j < i → ∀ o, (run dc de cs real s).1[j]? = some o → o.detached = false) := by
  induction cs with
  | nil => intro real s i h; simp at h
  | cons a cs ih =>
    intro real s i hi
    by_cases hd : (call dc de a real s).2.detached = true
    · have hrun : (run dc de (a :: cs) real s).1 = [(call dc de a real s).2] := by
        rw [run]; simp [hd]
      rw [hrun]
      cases i with
      | zero => simp
      | succ i =>
        constructor
        · rintro ⟨o, ho⟩; simp at ho
        · intro h
          have := h 0 (by omega) (call dc de a real s).2 (by simp)
          rw [hd] at this; cases this
    · simp only [Bool.not_eq_true] at hd
      have hrun : (run dc de (a :: cs) real s).1 =
          (call dc de a real s).2 :: (run dc de cs (renamed a real) (call dc de a real s).1).1 := by
        rw [run]; simp [hd]
      rw [hrun]
      cases i with
      | zero => simp
      | succ i =>
        simp only [List.getElem?_cons_succ]
        rw [ih (renamed a real) (call dc de a real s).1 i (by simpa using hi)]
        constructor
        · intro h j hj o ho
          cases j with
          | zero => simp only [List.getElem?_cons_zero, Option.some.injEq] at ho; rw [← ho]; exact hd
          | succ j => exact h j (by omega) o (by simpa using ho)
        · intro h j hj o ho
          exact h (j + 1) (by omega) o (by simpa using ho)

/-- three programs in a row: detached at the second one, which is shown without a result; attached: at the first one -/
example :
    let e : Call := ⟨.exec, true, false, true, 0, []⟩
    let w : Call := ⟨.other, true, false, true, 0, []⟩
    ((run false true [e, w, e, w] [] (started [])).1.map fun o => (o.shown, o.result, o.detached)) =
      [(true, true, false), (true, true, false), (true, false, true)] ∧
    ((run false true [w, e, w] [] (attached [])).1.map fun o => (o.shown, o.result, o.detached)) =
      [(true, true, false), (true, false, true)] := by
  decide +kernel

/-! ## C80 -/

/-- the last call before call `i` whose result was reported did not fail, if there is one -/
def LastFine (cs : List Call) (os : List Seen) (i : Nat) : Prop :=
  ∀ j c o, j < i → cs[j]? = some c → os[j]? = some o → o.result = true →
    (∀ k p, j < k → k < i → os[k]? = some p → p.result = false) → c.err = 0

theorem comm_run (cs : List Call) : ∀ (real : List Char) (s : St), s.comm = real →
    (∀ i c, cs[i]? = some c → c.ok = true → c.kind ≠ .other →
      LastFine cs (run true false cs real s).1 i ∧
      ((∀ k p, k < i → (run true false cs real s).1[k]? = some p → p.result = false) → s.uerr = 0)) →
    (run true false cs real s).2.1.comm = (run true false cs real s).2.2 := by
  induction cs with
  | nil => intro real s h _; exact h
  | cons a cs ih =>
    intro real s hs H
    obtain ⟨f1, f2, f3, f4, f5⟩ := call_facts true false a real s
    have hd : (call true false a real s).2.detached = false := by rw [f3]; simp
    obtain ⟨_, _, _, hu, hcm⟩ := f5 hd
    have hrun : run true false (a :: cs) real s =
        ((call true false a real s).2 :: (run true false cs (renamed a real) (call true false a real s).1).1,
          (run true false cs (renamed a real) (call true false a real s).1).2) := by
      rw [run]; simp [hd]
    rw [hrun] at H ⊢
    apply ih
    · rw [hcm]
      by_cases hk : a.kind = .other
      · simp [hk, renamed, hs]
      · by_cases hok : a.ok = true
        · have := (H 0 a (by simp) hok hk).2 (fun k p h => by omega)
          simp [hk, this]
        · have : renamed a real = real := by simp [renamed, hok]
          rw [this]; split
          · rfl
          · exact hs
    · intro i c hc hok hk
      obtain ⟨h1, h2⟩ := H (i + 1) c (by simpa using hc) hok hk
      constructor
      · intro j d o hj hdj ho hr hq
        refine h1 (j + 1) d o (by omega) (by simpa using hdj) (by simpa using ho) hr ?_
        intro k p hk1 hk2 hp
        cases k with
        | zero => omega
        | succ k => exact hq k p (by omega) (by omega) (by simpa using hp)
      · intro hq
        rw [hu]
        by_cases hres : (call true false a real s).2.result = true
        · rw [if_pos hres]
          refine h1 0 a _ (by omega) (by simp) (by simp) hres ?_
          intro k p hk1 hk2 hp
          cases k with
          | zero => omega
          | succ k => exact hq k p (by omega) (by simpa using hp)
        · rw [if_neg hres]
          apply h2
          intro k p hk1 hp
          cases k with
          | zero =>
            simp only [List.getElem?_cons_zero, Option.some.injEq] at hp
            rw [← hp]; simpa using hres
          | succ k => exact hq k p (by omega) (by simpa using hp)

/-- **The name shown for a task is the one it has**, after every history of calls in which no name was changed right after
a reported call that failed. -/
theorem comm_shown_partial (cs : List Call) (comm : List Char) (s : St) (hs : s = started comm ∨ s = attached comm)
    (hfine : ∀ i c, cs[i]? = some c → c.ok = true → c.kind ≠ .other →
      LastFine cs (run true false cs comm s).1 i) :
    (run true false cs comm s).2.1.comm = (run true false cs comm s).2.2 := by
  apply comm_run
  · rcases hs with rfl | rfl <;> rfl
  · intro i c hc hok hk
    refine ⟨hfine i c hc hok hk, fun _ => ?_⟩
    rcases hs with rfl | rfl <;> rfl

/-- the last name given in a history, or the one before it: what the kernel has -/
def lastName (comm : List Char) (cs : List Call) : List Char :=
  (((cs.filter fun c => c.ok && decide (c.kind ≠ .other)).map Call.name).getLast?).getD comm

/-- the kernel's name in the model is the last one given -/
theorem real_is_last (dc : Bool) (cs : List Call) : ∀ (real : List Char) (s : St),
    (run dc false cs real s).2.2 = lastName real cs := by
  induction cs with
  | nil => intro real s; rfl
  | cons a cs ih =>
    intro real s
    obtain ⟨_, _, f3, _, _⟩ := call_facts dc false a real s
    have hd : (call dc false a real s).2.detached = false := by rw [f3]; simp
    have : (run dc false (a :: cs) real s).2.2 =
        (run dc false cs (renamed a real) (call dc false a real s).1).2.2 := by
      rw [run]; simp [hd]
    rw [this, ih]
    unfold lastName renamed
    by_cases h : (a.ok && decide (a.kind ≠ .other)) = true
    · simp only [List.filter_cons, h, if_true, List.map_cons, List.getLast?_cons]
      simp
    · simp only [List.filter_cons, h]
      simp

/-- finding 51: a task that renames itself after a reported call that failed keeps its old name in the trace -/
theorem comm_stale :
    let cs : List Call := [⟨.other, true, false, false, 2, []⟩, ⟨.setName, true, false, true, 0, ['n', 'e', 'w']⟩,
      ⟨.other, true, false, true, 0, []⟩]
    (run true false cs ['o', 'l', 'd'] (attached ['o', 'l', 'd'])).2.1.comm = ['o', 'l', 'd'] ∧
    lastName ['o', 'l', 'd'] cs = ['n', 'e', 'w'] := by
  decide +kernel

/-- a rename after a call that failed but is filtered out, and one after a call that succeeded, are noticed -/
example :
    let cs : List Call := [⟨.other, true, false, true, 0, []⟩, ⟨.other, false, false, false, 2, []⟩,
      ⟨.setName, false, false, true, 0, ['a']⟩, ⟨.other, true, false, false, 2, []⟩, ⟨.other, true, false, true, 0, []⟩,
      ⟨.exec, true, false, true, 0, ['b']⟩]
    (run true false cs [] (attached [])).2.1.comm = ['b'] ∧
    (run true false (cs.take 4) [] (attached [])).2.1.comm = ['a'] := by
  decide +kernel

/-- the hypothesis of `comm_shown_partial` is met by a history that renames twice -/
example : ∃ cs : List Call, cs.length = 3 ∧
    (run true false cs [] (attached [])).2.1.comm = ['b'] ∧
    (∀ i c, cs[i]? = some c → c.ok = true → c.kind ≠ .other →
      LastFine cs (run true false cs [] (attached [])).1 i) := by
  refine ⟨[⟨.setName, true, false, true, 0, ['a']⟩, ⟨.other, true, false, true, 0, []⟩,
    ⟨.exec, true, false, true, 0, ['b']⟩], rfl, by decide +kernel, ?_⟩
  intro i c _ _ _ j d o _ hd _ _ _
  match j with
  | 0 => simp at hd; rw [← hd]
  | 1 => simp at hd; rw [← hd]
  | 2 => simp at hd; rw [← hd]
  | j + 3 => simp at hd

end Strace.Hide
