import Verif.Fds.Spec
import Mathlib.Tactic.Common
/-!
# Descriptors: what the program inherits, what strace keeps and where it writes
-/
namespace Strace.Fds
open Spec

theorem get_put (t : Table) (i : Nat) (e : Option Ent) (j : Nat) :
    get (put t i e) j = if j = i then e else get t j := by
  induction t generalizing i j with
  | nil =>
    induction i generalizing j with
    | zero => cases j <;> simp [put, get]
    | succ i ih => cases j with
      | zero => simp [put, get]
      | succ j => simp [put, get, ih]
  | cons d t ih =>
    cases i with
    | zero => cases j <;> simp [put, get]
    | succ i => cases j with
      | zero => simp [put, get]
      | succ j => simp [put, get, ih]

theorem get_lowest (t : Table) : get t (lowest t) = none := by
  induction t with
  | nil => rfl
  | cons d t ih => cases d with
    | none => rfl
    | some e => simpa [lowest, get] using ih

theorem lt_lowest (t : Table) (i : Nat) (h : i < lowest t) : get t i ≠ none := by
  induction t generalizing i with
  | nil => simp [lowest] at h
  | cons d t ih => cases d with
    | none => simp [lowest] at h
    | some e => cases i with
      | zero => simp [get]
      | succ i => exact ih i (by simp [lowest] at h; omega)

theorem lowest_gt (t : Table) (k : Nat) (h : ∀ i, i ≤ k → get t i ≠ none) : k < lowest t := by
  by_contra hc
  exact h (lowest t) (by omega) (get_lowest t)

theorem get_exec (t : Table) (i : Nat) : get (exec t) i = kept (get t i) := by
  induction t generalizing i with
  | nil => rfl
  | cons d t ih => cases i with
    | zero => rfl
    | succ i => exact ih i

theorem openDummy_fst (t : Table) : (openDummy t).1 = lowest t := rfl

/-- the two ends of a pipe are different descriptors that were closed before -/
theorem pipe_ends (t : Table) (r w : File) :
    (pipe t r w).1 = lowest t ∧ (pipe t r w).2.1 ≠ lowest t ∧ get t (pipe t r w).2.1 = none ∧
    ∀ j, get (pipe t r w).2.2 j = if j = (pipe t r w).2.1 then some ⟨w, false⟩ else
      if j = lowest t then some ⟨r, false⟩ else get t j := by
  have h := get_lowest (put t (lowest t) (some ⟨r, false⟩))
  rw [get_put] at h
  have hne : lowest (put t (lowest t) (some ⟨r, false⟩)) ≠ lowest t := by
    intro hc
    rw [if_pos hc] at h
    exact absurd h (by simp)
  rw [if_neg hne] at h
  refine ⟨rfl, hne, h, ?_⟩
  intro j
  show get (put (put t (lowest t) (some ⟨r, false⟩)) (lowest (put t (lowest t) (some ⟨r, false⟩))) (some ⟨w, false⟩)) j = _
  rw [get_put, get_put]
  rfl

theorem get_openDummy (t : Table) (j : Nat) :
    get (openDummy t).2 j = if j = lowest t then some ⟨.dummyR, true⟩ else get t j := by
  obtain ⟨h1, h2, h3, h4⟩ := pipe_ends t .dummyR .dummyW
  show get (setCloexec (close (pipe t .dummyR .dummyW).2.2 (pipe t .dummyR .dummyW).2.1) (pipe t .dummyR .dummyW).1) j = _
  unfold setCloexec close
  rw [h1]
  generalize (pipe t .dummyR .dummyW).2.1 = w at *
  rw [get_put]
  by_cases hj : j = lowest t
  · subst hj
    rw [if_pos rfl, if_pos rfl, get_put, if_neg (Ne.symm h2), h4, if_neg (Ne.symm h2), if_pos rfl]
    rfl
  · rw [if_neg hj, if_neg hj, get_put]
    by_cases hw : j = w
    · rw [if_pos hw, hw, h3]
    · rw [if_neg hw, h4, if_neg hw, if_neg hj]

/-- the loop ends, and makes every standard descriptor that is closed a placeholder, nothing else -/
theorem ensure_eq (n : Nat) (t : Table) (ph : Ph) (h : 3 < n + lowest t) (hn : 0 < n) :
    ∃ t' ph', ensure n t ph = some (t', ph') ∧
      (∀ i, get t' i = if i ≤ 2 ∧ get t i = none then some ⟨.dummyR, true⟩ else get t i) ∧
      (ph'.p0 = true ↔ ph.p0 = true ∨ get t 0 = none) ∧ (ph'.p1 = true ↔ ph.p1 = true ∨ get t 1 = none) := by
  induction n generalizing t ph with
  | zero => omega
  | succ n ih =>
    unfold ensure
    rw [openDummy_fst]
    have hl := lt_lowest t
    have hg := get_lowest t
    by_cases h2 : lowest t ≤ 2
    · rw [if_pos h2]
      by_cases he : lowest t = 2
      · rw [if_pos he]
        have h0 := hl 0 (by omega)
        have h1 := hl 1 (by omega)
        refine ⟨_, _, rfl, ?_, by simp [h0], by simp [h1]⟩
        intro i
        rw [get_openDummy, he]
        by_cases hi : i = 2
        · subst hi
          rw [he] at hg
          simp [hg]
        · rw [if_neg hi]
          by_cases hc : i ≤ 2 ∧ get t i = none
          · exact absurd hc.2 (hl i (by omega))
          · rw [if_neg hc]
      · rw [if_neg he]
        have hlow : lowest t < lowest (openDummy t).2 := by
          apply lowest_gt
          intro i hi
          rw [get_openDummy]
          by_cases hc : i = lowest t
          · simp [hc]
          · rw [if_neg hc]
            exact hl i (by omega)
        obtain ⟨t', ph', e, p, q0, q1⟩ := ih (openDummy t).2 (mark ph (lowest t)) (by omega) (by omega)
        refine ⟨t', ph', e, ?_, ?_, ?_⟩
        · intro i
          rw [p, get_openDummy]
          by_cases hc : i = lowest t
          · subst hc
            simp [hg, h2]
          · rw [if_neg hc]
        · rw [q0, get_openDummy]
          by_cases hc : 0 = lowest t
          · rw [← hc] at hg
            simp [← hc, mark, hg]
          · have : lowest t ≠ 0 := Ne.symm hc
            simp [hc, mark, this]
        · rw [q1, get_openDummy]
          by_cases hc : 1 = lowest t
          · rw [← hc] at hg
            simp [← hc, mark, hg]
          · have : lowest t = 0 := by omega
            simp [mark, this]
    · rw [if_neg h2]
      have h0 := hl 0 (by omega)
      have h1 := hl 1 (by omega)
      refine ⟨_, _, rfl, ?_, by simp [h0], by simp [h1]⟩
      intro i
      unfold close
      rw [get_put, get_openDummy]
      by_cases hi : i = lowest t
      · rw [if_pos hi, hi, hg, if_neg (by omega)]
      · rw [if_neg hi, if_neg hi]
        by_cases hc : i ≤ 2 ∧ get t i = none
        · exact absurd hc.2 (hl i (by omega))
        · rw [if_neg hc]

theorem get_straceFopen (t : Table) (j : Nat) :
    get (straceFopen t).2 j = if j = lowest t then some ⟨.log, true⟩ else get t j := by
  show get (put (put t (lowest t) _) (lowest t) (withCloexec (get (put t (lowest t) _) (lowest t)))) j = _
  rw [get_put, get_put, get_put, if_pos rfl]
  by_cases hj : j = lowest t
  · simp [hj, withCloexec]
  · simp [hj]

/-- what `openLog` does to the table, once the standard descriptors are open -/
theorem openLog_eq (t : Table) (d : Dest) (h3 : ∀ i, i ≤ 2 → get t i ≠ none) :
    (∀ j, get (openLog t d).tab j =
      if (openLog t d).toClose = some j then some ⟨if d = .command then .cmdW else .log, true⟩ else get t j) ∧
    (∀ fd, (openLog t d).toClose = some fd → 3 ≤ fd ∧ get t fd = none) ∧
    ((openLog t d).toClose.isSome = true ↔ d = .file ∨ d = .command) := by
  have hl : 2 < lowest t := lowest_gt t 2 h3
  cases d with
  | stderr => simp [openLog]
  | separate => simp [openLog]
  | file =>
    refine ⟨?_, ?_, by simp [openLog]⟩
    · intro j
      show get (straceFopen t).2 j = if some (lowest t) = some j then _ else _
      rw [get_straceFopen]
      by_cases hj : j = lowest t
      · simp [hj]
      · have : lowest t ≠ j := Ne.symm hj
        simp [hj, this]
    · intro fd hfd
      have : lowest t = fd := by simpa [openLog, straceFopen, openf] using hfd
      subst this
      exact ⟨hl, get_lowest t⟩
  | command =>
    obtain ⟨h1, h2, h3', h4⟩ := pipe_ends t .cmdR .cmdW
    have hw : 3 ≤ (pipe t .cmdR .cmdW).2.1 := by
      by_contra hc
      exact h3 _ (by omega) h3'
    refine ⟨?_, ?_, by simp [openLog]⟩
    · intro j
      show get (put (put (pipe t .cmdR .cmdW).2.2 (pipe t .cmdR .cmdW).2.1
        (withCloexec (get (pipe t .cmdR .cmdW).2.2 (pipe t .cmdR .cmdW).2.1))) (pipe t .cmdR .cmdW).1 none) j =
        if some (pipe t .cmdR .cmdW).2.1 = some j then _ else _
      rw [h1]
      generalize (pipe t .cmdR .cmdW).2.1 = w at *
      rw [get_put, get_put, h4, if_pos rfl]
      by_cases hj : j = lowest t
      · subst hj
        rw [if_pos rfl, if_neg (by simpa using h2), get_lowest]
      · rw [if_neg hj]
        by_cases hjw : j = w
        · subst hjw
          simp [withCloexec]
        · have : w ≠ j := Ne.symm hjw
          rw [if_neg hjw, if_neg (by simpa using this), h4, if_neg hjw, if_neg hj]
    · intro fd hfd
      have : (pipe t .cmdR .cmdW).2.1 = fd := by simpa [openLog, popenFork] using hfd
      subst this
      exact ⟨hw, h3'⟩

/-- the command: the pipe for its standard input, and the rest of the table -/
theorem command_eq (t c : Table) (d : Dest) (h3 : ∀ i, i ≤ 2 → get t i ≠ none)
    (hc : (openLog t d).command = some c) :
    get c 0 = some ⟨.cmdR, false⟩ ∧ ∀ i, i ≠ 0 → get c i = kept (get t i) := by
  have hl : 2 < lowest t := lowest_gt t 2 h3
  cases d with
  | stderr => simp [openLog] at hc
  | separate => simp [openLog] at hc
  | file => simp [openLog] at hc
  | command =>
    obtain ⟨h1, h2, h3', h4⟩ := pipe_ends t .cmdR .cmdW
    have hw : 3 ≤ (pipe t .cmdR .cmdW).2.1 := by
      by_contra hcc
      exact h3 _ (by omega) h3'
    have e : c = popenChild (popenFork t).2.2 (popenFork t).1 (popenFork t).2.1 := by
      simpa [openLog, eq_comm] using hc
    subst e
    unfold popenChild popenFork
    dsimp only
    rw [h1]
    generalize (pipe t .cmdR .cmdW).2.1 = w at *
    rw [if_pos (by omega)]
    have hg : ∀ j, get (close (setCloexec (pipe t .cmdR .cmdW).2.2 w) w) j =
        if j = w then none else if j = lowest t then some ⟨.cmdR, false⟩ else get t j := by
      intro j
      unfold close setCloexec
      rw [get_put, get_put, h4]
      by_cases hj : j = w
      · simp [hj]
      · simp [hj, h4 j]
    refine ⟨?_, ?_⟩
    · rw [get_exec]
      unfold close dup2
      rw [get_put, if_neg (by omega), get_put, if_pos rfl]
      have := hg (lowest t)
      unfold close at this
      rw [this, if_neg (Ne.symm h2), if_pos rfl]
      rfl
    · intro i hi
      rw [get_exec]
      unfold dup2
      show kept (get (put (put (close (setCloexec (pipe t .cmdR .cmdW).2.2 w) w) 0 _) (lowest t) none) i) = _
      rw [get_put, get_put, hg i]
      by_cases hj : i = lowest t
      · rw [if_pos hj, hj, get_lowest]
      · rw [if_neg hj, if_neg hi]
        by_cases hiw : i = w
        · rw [if_pos hiw, hiw, h3']
        · rw [if_neg hiw, if_neg hj]

theorem get_redirect1 (t : Table) (ph : Bool) (i : Nat) (hlow : ∀ j, j < i → get t j ≠ none) (j : Nat) :
    get (redirect1 t ph i) j = if ph = false ∧ j = i then some ⟨.dummyR, true⟩ else get t j := by
  cases ph with
  | true => simp [redirect1]
  | false =>
    have hl : lowest (close t i) = i := by
      have hg := get_lowest (close t i)
      unfold close at *
      rw [get_put] at hg
      by_cases hc : lowest (put t i none) = i
      · exact hc
      · rw [if_neg hc] at hg
        have h1 : i < lowest (put t i none) := by
          by_contra hx
          exact hlow _ (by omega) hg
        exact absurd (by rw [get_put]; simp) (lt_lowest _ i h1)
    simp only [redirect1, Bool.false_eq_true, if_false]
    rw [get_openDummy, hl]
    unfold close
    rw [get_put]
    by_cases hj : j = i <;> simp [hj]

theorem get_redirect (t : Table) (ph : Ph) (h0 : get t 0 ≠ none) (j : Nat) :
    get (redirect t ph) j =
      if (j = 0 ∧ ph.p0 = false) ∨ (j = 1 ∧ ph.p1 = false) then some ⟨.dummyR, true⟩ else get t j := by
  unfold redirect
  have e0 := get_redirect1 t ph.p0 0 (by omega)
  rw [get_redirect1 (redirect1 t ph.p0 0) ph.p1 1 ?_ j, e0 j]
  · by_cases a : j = 0
    · subst a
      cases ph.p0 <;> simp
    · by_cases b : j = 1
      · subst b
        cases ph.p1 <;> simp
      · simp [a, b]
  · intro k hk
    obtain rfl : k = 0 := by omega
    rw [e0]
    cases ph.p0 <;> simp [h0]

theorem get_ownLog (t : Table) (d : Dest) (dm : Bool) (j : Nat) :
    get (ownLog t d dm).2 j = if (ownLog t d dm).1 = some j then some ⟨.log, true⟩ else get t j := by
  unfold ownLog
  by_cases h : d = .separate ∧ dm = false
  · rw [if_pos h]
    show get (straceFopen t).2 j = if some (lowest t) = some j then _ else _
    rw [get_straceFopen]
    by_cases hj : j = lowest t
    · simp [hj]
    · have : lowest t ≠ j := Ne.symm hj
      simp [hj, this]
  · rw [if_neg h]
    simp

theorem ownLog_fd (t : Table) (d : Dest) (dm : Bool) (fd : Nat) (h : (ownLog t d dm).1 = some fd) :
    fd = lowest t ∧ d = .separate := by
  unfold ownLog at h
  by_cases hc : d = .separate ∧ dm = false
  · rw [if_pos hc] at h
    have : lowest t = fd := by simpa [straceFopen, openf] using h
    exact ⟨this.symm, hc.1⟩
  · rw [if_neg hc] at h
    simp at h

/-- **C102** Whatever descriptors strace is started with, and wherever its output goes, starting the program succeeds as
far as descriptors are concerned, and: the program has exactly the descriptors strace was started with, those that were
closed being closed; a command reading the output has those too, but for its standard input; strace itself holds neither
of its standard input and output any more, so that a pipe the program closes is closed; what else it has is not
inherited by anything it runs; and its output, when it has a file or a pipe for it, is not on a standard descriptor. -/
theorem inherited (t0 : Table) (d : Dest) (daemon : Bool) (hs : Started t0) :
    ∃ o, run t0 d daemon = some o ∧ Inherits t0 o.program ∧ LetsGo t0 o.tracer ∧
      (d = .command → ∃ c, o.command = some c ∧ Reads t0 c) ∧
      (∀ fd, o.logFd = some fd → Writes d o.tracer fd) ∧
      (d = .file ∨ d = .command ∨ (d = .separate ∧ daemon = false) → o.logFd.isSome = true) := by
  obtain ⟨t1, ph, e, p, q0, q1⟩ := ensure_eq 4 t0 ⟨false, false⟩ (by omega) (by omega)
  have h3 : ∀ i, i ≤ 2 → get t1 i ≠ none := by
    intro i hi
    rw [p]
    by_cases hc : get t0 i = none
    · simp [hi, hc]
    · simp [hc]
  obtain ⟨a1, a2, a3⟩ := openLog_eq t1 d h3
  have htab3 : ∀ i, i ≤ 2 → get (openLog t1 d).tab i = get t1 i := by
    intro i hi
    rw [a1, if_neg]
    intro hc
    have := (a2 i hc).1
    omega
  have hown3 : ∀ i, i ≤ 2 → get (ownLog (openLog t1 d).tab d daemon).2 i = get t1 i := by
    intro i hi
    rw [get_ownLog, if_neg, htab3 i hi]
    intro hc
    have := (ownLog_fd _ _ _ _ hc).1
    have : 2 < lowest (openLog t1 d).tab := lowest_gt _ 2 (fun k hk => by rw [htab3 k hk]; exact h3 k hk)
    omega
  have hred := get_redirect (ownLog (openLog t1 d).tab d daemon).2 ph (by rw [hown3 0 (by omega)]; exact h3 0 (by omega))
  have hk1 : ∀ i, kept (get t1 i) = get t0 i := by
    intro i
    rw [p]
    by_cases hc : i ≤ 2 ∧ get t0 i = none
    · rw [if_pos hc, hc.2]; rfl
    · rw [if_neg hc]
      cases hx : get t0 i with
      | none => rfl
      | some e => simp [kept, (hs i e hx).1]
  refine ⟨_, by simp only [run, e]; rfl, ?_, ?_, ?_, ?_, ?_⟩
  · -- the program
    intro i
    show get (program (openLog t1 d).tab (openLog t1 d).toClose) i = get t0 i
    unfold program
    cases hc : (openLog t1 d).toClose with
    | none =>
      simp only
      rw [get_exec, a1, if_neg (by simp [hc]), hk1]
    | some fd =>
      simp only
      rw [get_exec]
      unfold close
      rw [get_put]
      by_cases hi : i = fd
      · rw [if_pos hi, ← hk1, hi, (a2 fd hc).2]
      · rw [if_neg hi, a1, if_neg (by rw [hc]; intro x; exact hi (by simpa using x.symm)), hk1]
  · -- the tracer
    have hlow : 2 < lowest (openLog t1 d).tab := lowest_gt _ 2 (fun k hk => by rw [htab3 k hk]; exact h3 k hk)
    have hhigh : ∀ i, 3 ≤ i → get (redirect (ownLog (openLog t1 d).tab d daemon).2 ph) i =
        if (ownLog (openLog t1 d).tab d daemon).1 = some i then some ⟨.log, true⟩ else
        if (openLog t1 d).toClose = some i then some ⟨if d = .command then .cmdW else .log, true⟩ else get t0 i := by
      intro i hi
      have hp : get t1 i = get t0 i := by rw [p, if_neg (by omega)]
      rw [hred, if_neg (by omega), get_ownLog, a1, hp]
    refine ⟨?_, ?_, ?_, ?_, ?_⟩
    · show get (redirect _ ph) 0 = _
      rw [hred, hown3 0 (by omega), p]
      cases hp : ph.p0 with
      | false => simp
      | true => simp [(q0.1 hp).resolve_left (by simp)]
    · show get (redirect _ ph) 1 = _
      rw [hred, hown3 1 (by omega), p]
      cases hp : ph.p1 with
      | false => simp
      | true => simp [(q1.1 hp).resolve_left (by simp)]
    · show get (redirect _ ph) 2 = _
      rw [hred, if_neg (by omega), hown3 2 (by omega), p]
      cases get t0 2 <;> simp
    · intro i e hi he
      show get (redirect _ ph) i = _
      rw [hhigh i hi]
      have hx : get (openLog t1 d).tab i ≠ none := by
        rw [a1]
        by_cases hc : (openLog t1 d).toClose = some i
        · simp [hc]
        · rw [if_neg hc, p, if_neg (by omega), he]; simp
      rw [if_neg, if_neg, he]
      · intro hc
        have := (a2 i hc).2
        rw [p, if_neg (by omega), he] at this
        exact absurd this (by simp)
      · intro hc
        have := (ownLog_fd _ _ _ _ hc).1
        subst this
        exact hx (get_lowest _)
    · intro i e hi hn he
      have he' : get (redirect (ownLog (openLog t1 d).tab d daemon).2 ph) i = some e := he
      rw [hhigh i hi, hn] at he'
      by_cases c1 : (ownLog (openLog t1 d).tab d daemon).1 = some i
      · rw [if_pos c1] at he'
        cases he'
        rfl
      · rw [if_neg c1] at he'
        by_cases c2 : (openLog t1 d).toClose = some i
        · rw [if_pos c2] at he'
          cases he'
          rfl
        · rw [if_neg c2] at he'
          exact absurd he' (by simp)
  · -- the command
    intro hd
    subst hd
    refine ⟨popenChild (popenFork t1).2.2 (popenFork t1).1 (popenFork t1).2.1, rfl, ?_⟩
    obtain ⟨c0, c1⟩ := command_eq t1 _ .command h3 rfl
    exact ⟨c0, fun i hi => by rw [c1 i hi, hk1]⟩
  · -- where it writes
    intro fd hfd
    have hlow : 2 < lowest (openLog t1 d).tab := lowest_gt _ 2 (fun k hk => by rw [htab3 k hk]; exact h3 k hk)
    have hfd' : (match (openLog t1 d).toClose with
             | some fd => some fd
             | none => (ownLog (openLog t1 d).tab d daemon).1) = some fd := hfd
    show 3 ≤ fd ∧ get (redirect _ ph) fd = _
    cases hc : (openLog t1 d).toClose with
    | some k =>
      rw [hc] at hfd'
      obtain rfl : k = fd := by simpa using hfd'
      have hk := (a2 k hc).1
      refine ⟨hk, ?_⟩
      rw [hred, if_neg (by omega), get_ownLog, if_neg, a1, if_pos hc]
      intro hx
      have := (ownLog_fd _ _ _ _ hx).2
      subst this
      simp [openLog] at hc
    | none =>
      rw [hc] at hfd'
      simp only at hfd'
      obtain ⟨f1, f2⟩ := ownLog_fd _ _ _ _ hfd'
      refine ⟨by omega, ?_⟩
      rw [hred, if_neg (by omega), get_ownLog, if_pos hfd', f2]
      simp
  · intro hd
    show (match (openLog t1 d).toClose with
             | some fd => some fd
             | none => (ownLog (openLog t1 d).tab d daemon).1).isSome = true
    cases hc : (openLog t1 d).toClose with
    | some k => rfl
    | none =>
      rw [hc] at a3
      rcases hd with hd | hd | hd
      · exact absurd (a3.2 (.inl hd)) (by simp)
      · exact absurd (a3.2 (.inr hd)) (by simp)
      · simp [ownLog, hd]

/-- what the tracer opens later -/
theorem later_aux (t : Table) (l : List Later) (o : List Nat) (h : ∀ i, i ≤ 2 → get t i ≠ none)
    (ho : ∀ fd, fd ∈ o → 3 ≤ fd) :
    (∀ fd, fd ∈ (later t l o).2 → 3 ≤ fd) ∧ ∀ i, i ≤ 2 → get (later t l o).1 i = get t i := by
  induction l generalizing t o with
  | nil => exact ⟨ho, fun _ _ => rfl⟩
  | cons x l ih =>
    have hl := lowest_gt t 2 h
    cases x with
    | open_ =>
      have hg : ∀ i, i ≤ 2 → get (openf t .log).2 i = get t i := by
        intro i hi
        show get (put t (lowest t) _) i = _
        rw [get_put, if_neg (by omega)]
      obtain ⟨a, b⟩ := ih (openf t .log).2 ((openf t .log).1 :: o) (fun i hi => by rw [hg i hi]; exact h i hi)
        (by
          intro fd hfd
          rcases List.mem_cons.1 hfd with r | r
          · rw [r]; exact hl
          · exact ho fd r)
      exact ⟨a, fun i hi => by rw [later, b i hi, hg i hi]⟩
    | close_ fd =>
      unfold later
      by_cases hc : fd ∈ o
      · rw [if_pos hc]
        have h3 := ho fd hc
        have hg : ∀ i, i ≤ 2 → get (close t fd) i = get t i := by
          intro i hi
          unfold close
          rw [get_put, if_neg (by omega)]
        obtain ⟨a, b⟩ := ih (close t fd) o (fun i hi => by rw [hg i hi]; exact h i hi) ho
        exact ⟨a, fun i hi => by rw [b i hi, hg i hi]⟩
      · rw [if_neg hc]
        exact ih t o h ho

/-- **C102** Nothing strace opens after it has started the program takes one of the standard descriptors, whatever it
opens and closes. -/
theorem later_opens (t0 : Table) (d : Dest) (daemon : Bool) (hs : Started t0) (o : Outcome)
    (h : run t0 d daemon = some o) (l : List Later) :
    (∀ fd, fd ∈ (later o.tracer l []).2 → 3 ≤ fd) ∧
    ∀ i, i ≤ 2 → get (later o.tracer l []).1 i = get o.tracer i := by
  obtain ⟨o', e, _, g, _⟩ := inherited t0 d daemon hs
  rw [h] at e
  cases e
  refine later_aux _ l [] ?_ (by simp)
  intro i hi
  obtain rfl | rfl | rfl : i = 0 ∨ i = 1 ∨ i = 2 := by omega
  · rw [g.stdin]; simp
  · rw [g.stdout]; simp
  · rw [g.stderr]
    cases get t0 2 <;> simp

/-- A case: started with descriptors 0, 2 and 4 only, and `-o FILE`. -/
example : Started [some ⟨.orig 7, false⟩, none, some ⟨.orig 8, false⟩, none, some ⟨.orig 9, false⟩] := by
  intro i e h
  match i, h with
  | 0, h => simp [get] at h; subst h; simp
  | 1, h => simp [get] at h
  | 2, h => simp [get] at h; subst h; simp
  | 3, h => simp [get] at h
  | 4, h => simp [get] at h; subst h; simp
  | n + 5, h => simp [get] at h

/-- … the file is descriptor 3, and the core-pattern trouble (src/strace.c:3052-3056) does not arise -/
example : (run [some ⟨.orig 7, false⟩, none, some ⟨.orig 8, false⟩, none, some ⟨.orig 9, false⟩] .file false).map
    (fun o => (o.logFd, (List.range 6).map (get o.program), (List.range 6).map (get o.tracer))) =
    some (some 3, [some ⟨.orig 7, false⟩, none, some ⟨.orig 8, false⟩, none, some ⟨.orig 9, false⟩, none],
      [some ⟨.dummyR, true⟩, some ⟨.dummyR, true⟩, some ⟨.orig 8, false⟩, some ⟨.log, true⟩, some ⟨.orig 9, false⟩,
       none]) := by
  decide +kernel

end Strace.Fds
