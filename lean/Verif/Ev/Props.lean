import Verif.Ev.Spec
namespace Strace.Ev

/-! ### C26 -/

theorem wifsignaled_iff (status : Nat) : wifsignaled status = true ↔ 0 < status % 128 ∧ status % 128 < 127 := by
  unfold wifsignaled schar
  simp only [decide_eq_true_eq]
  split <;> omega

/-- **C26.**  Every stop the ptrace protocol has is recognised from the status word; only the first SIGSTOP
after an attach is treated specially, once. -/
theorem classify_spec (seize ignore : Bool) (st : Stop) (h : st.ok) :
    classify 133 (st.status seize) ignore st.noInfo =
      (st.event seize ignore,
        ignore && !(decide (st = .signal 19) || (!seize && decide (st = .group 19)))) := by
  have hs := wifsignaled_iff (st.status seize)
  unfold classify
  cases st with
  | exited code =>
    simp only [Stop.ok] at h
    have h1 : wifsignaled (Stop.status seize (.exited code)) = false := by
      rw [Bool.eq_false_iff]; intro hc; rw [hs] at hc; simp only [Stop.status] at hc; omega
    have h2 : wifexited (Stop.status seize (.exited code)) = true := by
      rw [wifexited, decide_eq_true_eq]; simp only [wtermsig, Stop.status]; omega
    simp [h1, h2, Stop.event]
  | killed sig core =>
    simp only [Stop.ok] at h
    have h1 : wifsignaled (Stop.status seize (.killed sig core)) = true := by
      rw [hs]; simp only [Stop.status]; split <;> omega
    simp [h1, Stop.event]
  | syscall => cases seize <;> cases ignore <;> decide
  | trap => cases seize <;> cases ignore <;> decide
  | exec => cases seize <;> cases ignore <;> decide
  | exitEv => cases seize <;> cases ignore <;> decide
  | seccomp => cases seize <;> cases ignore <;> decide
  | child ev =>
    simp only [Stop.ok] at h
    rcases h with h | h | h | h <;> subst h <;> cases seize <;> cases ignore <;> decide
  | signal sig =>
    simp only [Stop.ok] at h
    have h1 : wifsignaled (Stop.status seize (.signal sig)) = false := by
      rw [Bool.eq_false_iff]; intro hc; rw [hs] at hc; simp only [Stop.status] at hc; omega
    have h2 : wifexited (Stop.status seize (.signal sig)) = false := by
      rw [wifexited, decide_eq_false_iff_not]; simp only [wtermsig, Stop.status]; omega
    have h3 : Stop.status seize (.signal sig) / 65536 = 0 := by simp only [Stop.status]; omega
    have h4 : wstopsig (Stop.status seize (.signal sig)) = sig := by
      simp only [wstopsig, Stop.status]; omega
    simp only [h1, h2, h3, h4, Bool.false_eq_true, if_false, if_true, classifyPlain, Stop.noInfo, Stop.event,
      show sig ≠ 133 by omega]
    by_cases h19 : sig = 19 <;> cases ignore <;> simp [h19]
  | group sig =>
    simp only [Stop.ok, stopping] at h
    rcases h with h | h | h | h <;> subst h <;> cases seize <;> cases ignore <;> decide

/-- every status word is classified as a death iff it is one, whatever else is in it -/
theorem classify_death (trap status : Nat) (ignore siFails : Bool) :
    ((classify trap status ignore siFails).1 = .signalled ↔ 0 < status % 128 ∧ status % 128 < 127) ∧
    ((classify trap status ignore siFails).1 = .exited ↔ status % 128 = 0) := by
  have hs := wifsignaled_iff status
  have he : wifexited status = true ↔ status % 128 = 0 := by rw [wifexited, decide_eq_true_eq]; rfl
  have hp : (classifyPlain trap (wstopsig status) ignore siFails).1 ≠ .signalled ∧
      (classifyPlain trap (wstopsig status) ignore siFails).1 ≠ .exited := by
    unfold classifyPlain
    repeat' split
    all_goals simp
  have hq : classifyEventStop (wstopsig status) ≠ .signalled ∧ classifyEventStop (wstopsig status) ≠ .exited := by
    unfold classifyEventStop
    split <;> simp
  unfold classify
  by_cases h1 : wifsignaled status = true
  · rw [if_pos h1]
    have := hs.mp h1
    refine ⟨⟨fun _ => this, fun _ => rfl⟩, ⟨fun h => by simp at h, fun h => by omega⟩⟩
  · rw [if_neg h1]
    have h1' : ¬ (0 < status % 128 ∧ status % 128 < 127) := fun h => h1 (hs.mpr h)
    by_cases h2 : wifexited status = true
    · rw [if_pos h2]
      have := he.mp h2
      refine ⟨⟨fun h => by simp at h, fun h => by omega⟩, ⟨fun _ => this, fun _ => rfl⟩⟩
    · rw [if_neg h2]
      have h2' : ¬ status % 128 = 0 := fun h => h2 (he.mpr h)
      refine ⟨⟨fun h => ?_, fun h => absurd h h1'⟩, ⟨fun h => ?_, fun h => absurd h h2'⟩⟩
      all_goals
        exfalso
        revert h
        repeat' split
        all_goals first | exact hp.1 | exact hp.2 | exact hq.1 | exact hq.2 | simp

/-- the hypotheses are met -/
example : classify 133 (Stop.status true (.killed 11 true)) false false = (.signalled, false) ∧
    classify 133 (Stop.status true (.group 20)) false true = (.groupStop, false) ∧
    classify 133 (Stop.status false (.signal 19)) true false = (.restart, false) := by decide

/-! ### C27 -/

/-- the record and the stops along which no syscall is injected upon: a stop that ends neither the tracee
nor strace -/
def Plain : Stop → Prop
  | .exited _ => False
  | .killed _ _ => False
  | .exec => False
  | _ => True

/-- stops one after the other; the signals the tracee is resumed with -/
def sigsOf (c : Cfg) : Tcb → List (Stop × Sys) → Option (List Nat)
  | _, [] => some []
  | t, (st, s) :: l =>
    match deliver c false t none s (st.status c.seize) st.noInfo with
    | ⟨.resumed _ sig, t', _⟩ => (sigsOf c t' l).map (sig :: ·)
    | _ => none

theorem finish_false (t : Tcb) (op : ROp) (sig : Nat) (log : List Handled) (h : t.delayed = false) :
    finish false t op sig log = ⟨.resumed op sig, t, log⟩ := by
  simp [finish, h]

/-- injection-free decoding -/
def Sys.quiet (s : Sys) : Prop := s.sig = 0 ∧ s.delay = false ∧ 0 ≤ s.decode ∧ 0 ≤ s.res

theorem traceSyscall_quiet (t : Tcb) (s : Sys) (hs : s.quiet) (hd : t.delayed = false) :
    0 ≤ (traceSyscall t s).res ∧ (traceSyscall t s).sig = 0 ∧ (traceSyscall t s).tcb.delayed = false ∧
    (traceSyscall t s).tcb.ignore = t.ignore := by
  obtain ⟨h1, h2, h3, h4⟩ := hs
  unfold traceSyscall traceEntering traceExiting
  repeat' split
  all_goals simp_all

theorem onSyscall_quiet (c : Cfg) (cur : Nat) (t : Tcb) (s : Sys) (hs : s.quiet) (hd : t.delayed = false) :
    ∃ op t' log, onSyscall c cur false t s = ⟨.resumed op 0, t', log⟩ ∧ t'.delayed = false ∧
      t'.ignore = t.ignore := by
  obtain ⟨h1, h2, h3, h4⟩ := traceSyscall_quiet t s hs hd
  unfold onSyscall
  rw [if_neg (by omega), finish_false _ _ _ _ h3, h2]
  exact ⟨_, _, _, rfl, h3, h4⟩

theorem dispatch_sec1 (c : Cfg) (cur : Nat) (i : Bool) (t : Tcb) (th : Option Tcb) (s : Sys) (status : Nat)
    (h : t.filt = false) :
    dispatch c cur i t th s .seccomp status = finish i { t with filt := true } .syscall 0 [] := by
  simp [dispatch, h]

theorem dispatch_sec2 (c : Cfg) (cur : Nat) (i : Bool) (t : Tcb) (th : Option Tcb) (s : Sys) (status : Nat)
    (h : t.filt = true) (hb : c.before = true) :
    dispatch c cur i t th s .seccomp status = finish i t .syscall 0 [] := by
  simp [dispatch, h, hb]

theorem dispatch_sec3 (c : Cfg) (cur : Nat) (i : Bool) (t : Tcb) (th : Option Tcb) (s : Sys) (status : Nat)
    (h : t.filt = true) (hb : c.before = false) :
    dispatch c cur i t th s .seccomp status = onSyscall c cur i t s := by
  simp [dispatch, h, hb]

/-- **C27.**  Whatever stops a tracee goes through, it is resumed with the very signal that was about to be
delivered to it, with none after any other stop; the first SIGSTOP after an attach - strace's own - is not
delivered. -/
theorem signals_faithful (c : Cfg) (hc : c.trap = 133) (l : List (Stop × Sys))
    (hl : ∀ p ∈ l, p.1.ok ∧ Plain p.1 ∧ p.2.quiet) (t : Tcb) (hd : t.delayed = false) :
    sigsOf c t l = some (expectedSig c.seize t.ignore (l.map Prod.fst)) := by
  induction l generalizing t with
  | nil => rfl
  | cons p l ih =>
    obtain ⟨st, s⟩ := p
    obtain ⟨hok, hp, hq⟩ := hl (st, s) (by simp)
    have hl' : ∀ p ∈ l, p.1.ok ∧ Plain p.1 ∧ p.2.quiet := fun p hp => hl p (List.mem_cons_of_mem _ hp)
    have hcl := classify_spec c.seize t.ignore st hok
    rw [← hc] at hcl
    simp only [sigsOf, deliver, hcl, List.map_cons]
    cases st with
    | exited code => exact absurd hp (by simp [Plain])
    | killed sig core => exact absurd hp (by simp [Plain])
    | exec => exact absurd hp (by simp [Plain])
    | syscall =>
      simp only [Stop.event, dispatch]
      obtain ⟨op, t', log, h1, h2, h3⟩ := onSyscall_quiet c t.pers
        { t with ignore := t.ignore && !(decide (Stop.syscall = .signal 19) ||
          (!c.seize && decide (Stop.syscall = .group 19))) } s hq hd
      rw [h1]
      simp only [ih hl' t' h2, h3, Option.map_some, expectedSig]
      simp
    | signal sig =>
      simp only [Stop.ok] at hok
      have hw : wstopsig (Stop.status c.seize (.signal sig)) = sig := by
        simp only [wstopsig, Stop.status]; omega
      by_cases h19 : sig = 19 ∧ t.ignore = true
      · simp only [Stop.event, if_pos h19, dispatch]
        rw [finish_false _ _ _ _ (by exact hd)]
        dsimp only
        rw [ih hl' _ (by exact hd)]
        simp [expectedSig, h19]
      · simp only [Stop.event, if_neg h19, dispatch, hw]
        rw [finish_false _ _ _ _ (by exact hd)]
        dsimp only
        rw [ih hl' _ (by exact hd)]
        simp only [expectedSig, if_neg h19, Option.map_some]
        by_cases hs : sig = 19
        · have : t.ignore = false := by
            cases hi : t.ignore
            · rfl
            · exact absurd ⟨hs, hi⟩ h19
          simp [this]
        · simp [hs]
    | group sig =>
      have hw : wstopsig (Stop.status c.seize (.group sig)) = sig := by
        simp only [Stop.ok, stopping] at hok
        simp only [wstopsig, Stop.status]
        split <;> omega
      simp only [Stop.event]
      by_cases hz : c.seize = true
      · rw [if_neg (by simp [hz])]
        simp only [dispatch, if_pos hz]
        rw [finish_false _ _ _ _ (by exact hd)]
        dsimp only
        rw [ih hl' _ (by exact hd)]
        simp [expectedSig, hz]
      · have hz' : c.seize = false := by simpa using hz
        by_cases h19 : sig = 19 ∧ t.ignore = true
        · rw [if_pos ⟨hz', h19⟩]
          simp only [dispatch]
          rw [finish_false _ _ _ _ (by exact hd)]
          dsimp only
          rw [ih hl' _ (by exact hd)]
          simp [expectedSig, hz', h19]
        · rw [if_neg (by simp only [hz', true_and]; exact h19)]
          simp only [dispatch, if_neg hz, hw]
          rw [finish_false _ _ _ _ (by exact hd)]
          dsimp only
          rw [ih hl' _ (by exact hd)]
          simp only [expectedSig, if_neg hz, if_neg h19, Option.map_some]
          by_cases hs : sig = 19
          · have : t.ignore = false := by
              cases hi : t.ignore
              · rfl
              · exact absurd ⟨hs, hi⟩ h19
            simp [this]
          · simp [hs]
    | trap =>
      simp only [Stop.event, dispatch]
      rw [finish_false _ _ _ _ (by exact hd)]
      dsimp only
      rw [ih hl' _ (by exact hd)]
      simp [expectedSig]
    | exitEv =>
      simp only [Stop.event, dispatch]
      rw [finish_false _ _ _ _ (by exact hd)]
      dsimp only
      rw [ih hl' _ (by exact hd)]
      simp [expectedSig]
    | child ev =>
      simp only [Stop.event, dispatch]
      rw [finish_false _ _ _ _ (by exact hd)]
      dsimp only
      rw [ih hl' _ (by exact hd)]
      simp [expectedSig]
    | seccomp =>
      simp only [Stop.event]
      by_cases h1 : t.filt = false
      · rw [dispatch_sec1 _ _ _ _ _ _ _ (by exact h1), finish_false _ _ _ _ (by exact hd)]
        dsimp only
        rw [ih hl' _ (by exact hd)]
        simp [expectedSig]
      · by_cases h2 : c.before = true
        · rw [dispatch_sec2 _ _ _ _ _ _ _ (by simpa using h1) h2, finish_false _ _ _ _ (by exact hd)]
          dsimp only
          rw [ih hl' _ (by exact hd)]
          simp [expectedSig]
        · rw [dispatch_sec3 _ _ _ _ _ _ _ (by simpa using h1) (by simpa using h2)]
          obtain ⟨op, t', log, h1, h2, h3⟩ := onSyscall_quiet c t.pers
            { t with ignore := t.ignore && !(decide (Stop.seccomp = .signal 19) ||
              (!c.seize && decide (Stop.seccomp = .group 19))) } s hq hd
          rw [h1]
          simp only [ih hl' t' h2, h3, Option.map_some, expectedSig]
          simp

end Strace.Ev
