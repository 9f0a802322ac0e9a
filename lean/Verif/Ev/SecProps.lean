import Verif.Ev.Props
namespace Strace.Ev

/-- the record between stops: nothing pending -/
structure At (t : Tcb) (insys filt : Bool) (scno pers : Nat) : Prop where
  insys : t.insys = insys
  filt : t.filt = filt
  delayed : t.delayed = false
  scno : t.scno = scno
  pers : t.pers = pers

theorem At.ignore {t : Tcb} {a b : Bool} {n p : Nat} (h : At t a b n p) (ig : Bool) :
    At { t with ignore := ig } a b n p := ⟨h.insys, h.filt, h.delayed, h.scno, h.pers⟩

theorem hit_resumed {c : Cfg} {r : Run} {st : Stop} {s : Sys} {op : ROp} {sig : Nat} {t : Tcb}
    {log : List Handled} (h : deliver c false r.t none s (st.status c.seize) st.noInfo = ⟨.resumed op sig, t, log⟩) :
    hit c r st s = some ⟨t, op, r.log ++ log⟩ := by
  unfold hit; rw [h]

theorem hit_held {c : Cfg} {r : Run} {st : Stop} {s : Sys} {op : ROp} {sig : Nat} {t t' : Tcb}
    {log log' : List Handled}
    (h : deliver c false r.t none s (st.status c.seize) st.noInfo = ⟨.held, t, log⟩)
    (h' : restartDelayed c t.pers t s = ⟨.resumed op sig, t', log'⟩) :
    hit c r st s = some ⟨t', op, r.log ++ log ++ log'⟩ := by
  unfold hit
  rw [h]
  dsimp only
  rw [h']

/-- the default request by state -/
theorem defaultOp_at (c : Cfg) {t : Tcb} {a b : Bool} {n p : Nat} (h : At t a b n p) (cur : Nat) :
    defaultOp c cur t = if b = true then
      (if a = true ∧ n < c.nsys cur ∧ c.traced cur n = true then .syscall else .cont) else .syscall := by
  unfold defaultOp filterOp
  rw [h.filt, h.insys, h.scno]

theorem restartDelayed_at (c : Cfg) {t : Tcb} {cur : Nat} (s : Sys) :
    restartDelayed c cur t s =
      ⟨.resumed (defaultOp c cur { t with delayed := false }) 0, { t with delayed := false }, []⟩ := by
  unfold restartDelayed dispatch
  dsimp only
  rw [finish_false _ _ _ _ rfl]

/-- a stop that changes nothing -/
theorem hit_plain (c : Cfg) (hc : c.trap = 133) (hx : c.detachExec = false) (r : Run) (st : Stop) (s : Sys)
    (hok : st.ok) {a b : Bool} {n p : Nat} (h : At r.t a b n p)
    (hst : (∃ sig, st = .signal sig) ∨ st = .trap ∨ (∃ ev, st = .child ev) ∨ (st = .exec ∧ a = true)) :
    ∃ t', hit c r st s = some ⟨t', defaultOp c p r.t, r.log⟩ ∧ At t' a b n p := by
  have hcl := classify_spec c.seize r.t.ignore st hok
  rw [← hc] at hcl
  have hdef : ∀ ig, defaultOp c p { r.t with ignore := ig } = defaultOp c p r.t := fun ig => rfl
  have key : ∃ sig t', deliver c false r.t none s (st.status c.seize) st.noInfo =
      ⟨.resumed (defaultOp c p r.t) sig, t', []⟩ ∧ At t' a b n p := by
    have hpp := h.pers
    subst hpp
    unfold deliver
    rw [hcl]
    dsimp only
    generalize (r.t.ignore && _) = ig
    have hi := h.ignore ig
    rcases hst with ⟨sig, rfl⟩ | rfl | ⟨ev, rfl⟩ | ⟨rfl, ha⟩
    · simp only [Stop.event]
      split
      · simp only [dispatch]
        rw [finish_false _ _ _ _ (by exact h.delayed), hdef]
        exact ⟨_, _, rfl, hi⟩
      · simp only [dispatch]
        rw [finish_false _ _ _ _ (by exact h.delayed), hdef]
        exact ⟨_, _, rfl, hi⟩
    · simp only [Stop.event, dispatch]
      rw [finish_false _ _ _ _ (by exact h.delayed), hdef]
      exact ⟨_, _, rfl, hi⟩
    · simp only [Stop.event, dispatch]
      rw [finish_false _ _ _ _ (by exact h.delayed), hdef]
      exact ⟨_, _, rfl, hi⟩
    · simp only [Stop.event, dispatch, onExec]
      rw [if_pos (by rw [hi.insys, ha]), execDetach, if_neg (by simp [hx]),
        finish_false _ _ _ _ (by exact h.delayed), hdef]
      exact ⟨_, _, rfl, hi⟩
  obtain ⟨sig, t', h1, h2⟩ := key
  refine ⟨t', ?_, h2⟩
  rw [hit_resumed h1, List.append_nil]

/-- a stop in which the entry of a call is handled -/
theorem onSyscall_entry (c : Cfg) (r : Run) (st : Stop) (k : Call) {b : Bool} {n p cur : Nat}
    (t0 : Tcb) (h : At t0 false b n p)
    (hd : deliver c false r.t none (entrySys k) (st.status c.seize) st.noInfo =
      onSyscall c cur false t0 (entrySys k))
    (hk : b = true → k.delayEnter = true → k.n < c.nsys k.pers ∧ c.traced k.pers k.n = true) :
    ∃ t', hit c r st (entrySys k) = some ⟨t', .syscall, r.log ++ [.entry k.n]⟩ ∧ At t' true b k.n k.pers := by
  have htr : traceSyscall t0 (entrySys k) = ⟨k.res, k.sig, { t0 with
      insys := true, scno := k.n, pers := k.pers, delayed := k.delayEnter }, [.entry k.n]⟩ := by
    simp [traceSyscall, traceEntering, h.insys, entrySys, h.delayed]
  unfold onSyscall at hd
  rw [htr, if_neg (by simp)] at hd
  dsimp only at hd
  have hop : (if t0.filt = true then (if (true : Bool) = true then ROp.syscall else .cont)
      else defaultOp c cur t0) = .syscall := by
    split
    · rfl
    · rename_i hf
      rw [defaultOp, if_neg hf]
  simp only [if_true] at hd hop
  rw [hop] at hd
  cases hde : k.delayEnter with
  | false =>
    rw [finish_false _ _ _ _ (by exact hde)] at hd
    exact ⟨_, hit_resumed hd, ⟨rfl, h.filt, hde, rfl, rfl⟩⟩
  | true =>
    rw [finish, if_neg (by simp), if_pos (by exact hde)] at hd
    have hat : At { t0 with insys := true, scno := k.n, pers := k.pers, delayed := false } true b k.n k.pers :=
      ⟨rfl, h.filt, rfl, rfl, rfl⟩
    have h2 := hit_held hd (restartDelayed_at c (entrySys k))
    refine ⟨_, ?_, hat⟩
    rw [h2]
    have : defaultOp c k.pers { t0 with insys := true, scno := k.n, pers := k.pers, delayed := false } = .syscall := by
      rw [defaultOp_at c hat]
      cases b with
      | false => rfl
      | true =>
        have := hk rfl hde
        simp [this]
    simp [this]

/-- a stop in which the exit of a call is handled -/
theorem onSyscall_exit (c : Cfg) (r : Run) (st : Stop) (k : Call) {b : Bool} {n p cur : Nat}
    (t0 : Tcb) (h : At t0 true b n p)
    (hd : deliver c false r.t none (exitSys k) (st.status c.seize) st.noInfo =
      onSyscall c cur false t0 (exitSys k)) :
    ∃ t', hit c r st (exitSys k) = some ⟨t', if b = true then .cont else .syscall, r.log ++ [.exit n]⟩ ∧
      At t' false b n p := by
  have htr : traceSyscall t0 (exitSys k) = ⟨0, 0, { t0 with insys := false, delayed := !k.filtered && k.delayExit },
      [.exit n]⟩ := by
    cases hfi : k.filtered with
    | true =>
      simp only [traceSyscall, traceExiting, h.insys, exitSys, h.scno, hfi, if_true, Bool.not_true, Bool.false_and]
      rw [if_neg (by simp), ← h.delayed]
    | false => simp [traceSyscall, traceExiting, h.insys, exitSys, h.delayed, h.scno, hfi]
  unfold onSyscall at hd
  rw [htr, if_neg (by simp)] at hd
  dsimp only at hd
  have hop : (if t0.filt = true then (if (false : Bool) = true then ROp.syscall else .cont)
      else defaultOp c cur t0) = if b = true then .cont else .syscall := by
    rw [h.filt]
    cases b with
    | true => rfl
    | false => simp [defaultOp, h.filt]
  rw [hop] at hd
  have hat : At { t0 with insys := false, delayed := false } false b n p := ⟨rfl, h.filt, rfl, h.scno, h.pers⟩
  cases hde : (!k.filtered && k.delayExit) with
  | false =>
    rw [hde] at hd
    rw [finish_false _ _ _ _ (by rfl)] at hd
    exact ⟨_, hit_resumed hd, hat⟩
  | true =>
    rw [hde, finish, if_neg (by simp), if_pos (by rfl)] at hd
    have h2 := hit_held hd (restartDelayed_at c (exitSys k))
    refine ⟨_, ?_, hat⟩
    rw [h2]
    have : defaultOp c t0.pers { t0 with insys := false, delayed := false } = if b = true then .cont else .syscall := by
      rw [defaultOp_at c hat]
      simp
    simp [this]

theorem deliver_syscall (c : Cfg) (hc : c.trap = 133) (t : Tcb) (s : Sys) :
    ∃ ig, deliver c false t none s (Stop.status c.seize .syscall) (Stop.noInfo .syscall) =
      onSyscall c t.pers false { t with ignore := ig } s := by
  have hcl := classify_spec c.seize t.ignore .syscall (by simp [Stop.ok])
  rw [← hc] at hcl
  unfold deliver
  rw [hcl]
  exact ⟨_, rfl⟩

theorem deliver_seccomp (c : Cfg) (hc : c.trap = 133) (t : Tcb) (s : Sys) :
    ∃ ig, deliver c false t none s (Stop.status c.seize .seccomp) (Stop.noInfo .seccomp) =
      dispatch c t.pers false { t with ignore := ig } none s .seccomp (Stop.status c.seize .seccomp) := by
  have hcl := classify_spec c.seize t.ignore .seccomp (by simp [Stop.ok])
  rw [← hc] at hcl
  unfold deliver
  rw [hcl]
  exact ⟨_, rfl⟩

/-- the request an idle tracee runs with -/
def idleOp (known : Bool) : ROp := if known = true then .cont else .syscall

theorem hit_entry (c : Cfg) (hc : c.trap = 133) (r : Run) (k : Call) {b : Bool} {n p : Nat}
    (h : At r.t false b n p)
    (hk : b = true → k.delayEnter = true → k.n < c.nsys k.pers ∧ c.traced k.pers k.n = true) :
    ∃ t', hit c r .syscall (entrySys k) = some ⟨t', .syscall, r.log ++ [.entry k.n]⟩ ∧ At t' true b k.n k.pers := by
  obtain ⟨ig, hd⟩ := deliver_syscall c hc r.t (entrySys k)
  exact onSyscall_entry c r .syscall k _ (h.ignore ig) hd hk

theorem hit_exit (c : Cfg) (hc : c.trap = 133) (r : Run) (k : Call) {b : Bool} {n p : Nat}
    (h : At r.t true b n p) :
    ∃ t', hit c r .syscall (exitSys k) = some ⟨t', idleOp b, r.log ++ [.exit n]⟩ ∧ At t' false b n p := by
  obtain ⟨ig, hd⟩ := deliver_syscall c hc r.t (exitSys k)
  exact onSyscall_exit c r .syscall k _ (h.ignore ig) hd

/-- the entry of a call the filter stops -/
theorem enter_traced (c : Cfg) (hc : c.trap = 133) (F : Nat → Nat → Bool) (r : Run) (k : Call) {known : Bool}
    {n p : Nat} (h : At r.t false known n p) (hop : r.op = idleOp known) (hF : F k.pers k.n = true)
    (hk : k.delayEnter = true → k.n < c.nsys k.pers ∧ c.traced k.pers k.n = true) :
    ∃ t', enter c c.before F k r = some ⟨t', .syscall, r.log ++ [.entry k.n]⟩ ∧ At t' true true k.n k.pers := by
  unfold enter seccompStop syscallStop
  obtain ⟨ig, hs⟩ := deliver_seccomp c hc r.t (entrySys k)
  cases hb : c.before with
  | true =>
    simp only [if_true, hF]
    cases hkn : known with
    | false =>
      rw [hkn] at h
      rw [dispatch_sec1 _ _ _ _ _ _ _ (by exact h.filt), finish_false _ _ _ _ (by exact h.delayed)] at hs
      rw [hit_resumed hs]
      dsimp only [Option.bind_some]
      rw [if_pos rfl]
      have := hit_entry c hc ⟨{ r.t with ignore := ig, filt := true }, .syscall, r.log ++ []⟩ k (b := true)
        (n := n) (p := p) ⟨h.insys, rfl, h.delayed, h.scno, h.pers⟩ (fun _ => hk)
      simpa using this
    | true =>
      rw [hkn] at h
      rw [dispatch_sec2 _ _ _ _ _ _ _ (by exact h.filt) hb, finish_false _ _ _ _ (by exact h.delayed)] at hs
      rw [hit_resumed hs]
      dsimp only [Option.bind_some]
      rw [if_pos rfl]
      have := hit_entry c hc ⟨{ r.t with ignore := ig }, .syscall, r.log ++ []⟩ k (b := true)
        (n := n) (p := p) ⟨h.insys, h.filt, h.delayed, h.scno, h.pers⟩ (fun _ => hk)
      simpa using this
  | false =>
    simp only [Bool.false_eq_true, if_false, hF, if_true]
    cases hkn : known with
    | false =>
      rw [hkn] at h hop
      rw [if_pos (by rw [hop]; rfl)]
      obtain ⟨t1, h1, hat⟩ := hit_entry c hc r k h (fun hf => by simp at hf)
      rw [h1, Option.bind_some]
      obtain ⟨ig2, hs2⟩ := deliver_seccomp c hc t1 (entrySys k)
      rw [dispatch_sec1 _ _ _ _ _ _ _ (by exact hat.filt), finish_false _ _ _ _ (by exact hat.delayed)] at hs2
      refine ⟨{ t1 with ignore := ig2, filt := true }, ?_, ⟨hat.insys, rfl, hat.delayed, hat.scno, hat.pers⟩⟩
      rw [hit_resumed (r := ⟨t1, .syscall, r.log ++ [Handled.entry k.n]⟩) hs2, List.append_nil]
    | true =>
      rw [hkn] at h hop
      rw [if_neg (by rw [hop]; simp [idleOp]), Option.bind_some]
      rw [dispatch_sec3 _ _ _ _ _ _ _ (by exact h.filt) hb] at hs
      exact onSyscall_entry c r .seccomp k _ (h.ignore ig) hs (fun _ => hk)

/-- the entry of a call the filter lets through -/
theorem enter_untraced (c : Cfg) (hc : c.trap = 133) (F : Nat → Nat → Bool) (r : Run) (k : Call) {known : Bool}
    {n p : Nat} (h : At r.t false known n p) (hop : r.op = idleOp known) (hF : F k.pers k.n = false) :
    ∃ t', (known = false → enter c c.before F k r = some ⟨t', .syscall, r.log ++ [.entry k.n]⟩ ∧
        At t' true false k.n k.pers) ∧ (known = true → enter c c.before F k r = some r) := by
  have he : enter c c.before F k r = syscallStop c (entrySys k) r := by
    unfold enter seccompStop
    simp only [hF, Bool.false_eq_true, if_false]
    cases c.before
    · simp
    · simp
  rw [he]
  unfold syscallStop
  cases hkn : known with
  | false =>
    rw [hkn] at h hop
    obtain ⟨t1, h1, hat⟩ := hit_entry c hc r k h (fun hf => by simp at hf)
    refine ⟨t1, fun _ => ?_, fun hf => by simp at hf⟩
    rw [if_pos (by rw [hop]; rfl)]
    exact ⟨h1, hat⟩
  | true =>
    refine ⟨r.t, fun hf => by simp at hf, fun _ => ?_⟩
    rw [if_neg (by rw [hop, hkn]; simp [idleOp])]

/-- the events inside a call change neither the record nor what the next stop will be -/
theorem inside_spec (c : Cfg) (hc : c.trap = 133) (hx : c.detachExec = false) (s : Sys) (l : List Stop) (r : Run)
    {a b : Bool} {n p : Nat} (h : At r.t a b n p) (hop : l = [] ∨ r.op = defaultOp c p r.t)
    (hl : ∀ st ∈ l, st = .exec ∨ ∃ ev, st = .child ev ∧ st.ok) (hexec : .exec ∈ l → a = true) :
    ∃ t', inside c s l r = some ⟨t', r.op, r.log⟩ ∧ At t' a b n p := by
  induction l generalizing r with
  | nil => exact ⟨r.t, rfl, h⟩
  | cons st l ih =>
    have hok : st.ok := by
      rcases hl st (by simp) with h | ⟨ev, h, hk⟩
      · rw [h]; simp [Stop.ok]
      · exact hk
    have hkind : (∃ sig, st = .signal sig) ∨ st = .trap ∨ (∃ ev, st = .child ev) ∨ (st = .exec ∧ a = true) := by
      rcases hl st (by simp) with h | ⟨ev, h, hk⟩
      · exact Or.inr (Or.inr (Or.inr ⟨h, hexec (by simp [h])⟩))
      · exact Or.inr (Or.inr (Or.inl ⟨ev, h⟩))
    obtain ⟨t', h1, hat⟩ := hit_plain c hc hx r st s hok h hkind
    have hopr : r.op = defaultOp c p r.t := by
      rcases hop with hop | hop
      · simp at hop
      · exact hop
    simp only [inside, h1, Option.bind_some]
    have hsame : defaultOp c p t' = defaultOp c p r.t := by
      rw [defaultOp_at c hat, defaultOp_at c h]
    obtain ⟨t2, h2, hat2⟩ := ih ⟨t', defaultOp c p r.t, r.log⟩ hat (Or.inr hsame.symm)
      (fun st hst => hl st (List.mem_cons_of_mem _ hst)) (fun hm => hexec (List.mem_cons_of_mem _ hm))
    refine ⟨t2, ?_, hat2⟩
    rw [h2, hopr]

/-- **C17.**  Whichever order the kernel uses, each call is handled by strace as exactly one entry followed
by exactly one exit - every call until strace learns that the tracee has a filter, and from then on every
call the filter stops - whatever signals, group stops, forks and execs come in between, and whatever delays
are injected.  Missing: an exec made by a thread other than the leader (`exec_switch_op`), a call beyond the
table with events inside it (`beyond_table_missed`), a delay ending while a tracee of another personality is
current (`delayed_wrong_personality`) - there the code does go wrong. -/
theorem alternation_partial (c : Cfg) (hc : c.trap = 133) (hx : c.detachExec = false) (F : Nat → Nat → Bool)
    (l : List Act) (hl : ∀ a ∈ l, a.ok c F) (r : Run) (known : Bool) (n p : Nat)
    (h : At r.t false known n p) (hop : r.op = idleOp known) :
    ∃ r', acts c c.before F r l = some r' ∧ r'.log = r.log ++ expectedLog F known l ∧
      r'.t.insys = false := by
  induction l generalizing r known n p with
  | nil => exact ⟨r, rfl, by simp [expectedLog], h.insys⟩
  | cons a l ih =>
    have ha := hl a (by simp)
    have hl' : ∀ a ∈ l, a.ok c F := fun a ha => hl a (List.mem_cons_of_mem _ ha)
    have hdef : defaultOp c p r.t = idleOp known := by
      rw [defaultOp_at c h]; simp [idleOp]
    -- a stop outside calls
    have hout : ∀ st, st.ok → ((∃ sig, st = .signal sig) ∨ st = .trap) →
        ∃ t', hit c r st ⟨0, 0, 0, false, 0, 0⟩ = some ⟨t', idleOp known, r.log⟩ ∧ At t' false known n p := by
      intro st hok hst
      rw [← hdef]
      exact hit_plain c hc hx r st _ hok h (by rcases hst with h | h <;> simp [h])
    cases a with
    | signal sig =>
      obtain ⟨t', h1, hat⟩ := hout (.signal sig) ha (Or.inl ⟨sig, rfl⟩)
      simp only [acts, act, h1, Option.bind_some, expectedLog]
      exact ih hl' ⟨t', idleOp known, r.log⟩ known n p hat rfl
    | trap =>
      obtain ⟨t', h1, hat⟩ := hout .trap (by simp [Stop.ok]) (Or.inr rfl)
      simp only [acts, act, h1, Option.bind_some, expectedLog]
      exact ih hl' ⟨t', idleOp known, r.log⟩ known n p hat rfl
    | group sig =>
      have hcl := classify_spec c.seize r.t.ignore (.group sig) ha
      rw [← hc] at hcl
      simp only [Act.ok, stopping] at ha
      simp only [acts, act, expectedLog]
      by_cases hz : c.seize = true
      · rw [if_pos hz]
        have hd : deliver c false r.t none ⟨0, 0, 0, false, 0, 0⟩ (Stop.status c.seize (.group sig))
            (Stop.noInfo (.group sig)) = ⟨.resumed .listen 0, { r.t with ignore := (r.t.ignore &&
              !(decide (Stop.group sig = .signal 19) || (!c.seize && decide (Stop.group sig = .group 19)))) }, []⟩ := by
          unfold deliver
          rw [hcl]
          simp only [Stop.event]
          rw [if_neg (by simp [hz])]
          simp only [dispatch, if_pos hz]
          rw [finish_false _ _ _ _ (by exact h.delayed)]
        rw [hit_resumed hd]
        dsimp only [Option.bind_some]
        generalize (r.t.ignore && _) = ig
        obtain ⟨t', h1, hat⟩ := hit_plain c hc hx ⟨{ r.t with ignore := ig }, .listen, r.log ++ []⟩ .trap
          ⟨0, 0, 0, false, 0, 0⟩ (by simp [Stop.ok]) (h.ignore ig) (by simp)
        rw [h1]
        dsimp only [Option.bind_some]
        have := ih hl' ⟨t', idleOp known, r.log⟩ known n p hat rfl
        simp only [List.append_nil]
        have he : defaultOp c p { r.t with ignore := ig } = idleOp known := by
          rw [defaultOp_at c (h.ignore ig)]; simp [idleOp]
        rw [he]
        exact this
      · rw [if_neg hz]
        have hd : ∃ sig' t', deliver c false r.t none ⟨0, 0, 0, false, 0, 0⟩ (Stop.status c.seize (.group sig))
            (Stop.noInfo (.group sig)) = ⟨.resumed (idleOp known) sig', t', []⟩ ∧ At t' false known n p := by
          have hpp := h.pers
          subst hpp
          unfold deliver
          rw [hcl]
          dsimp only
          generalize (r.t.ignore && _) = ig
          have he : defaultOp c r.t.pers { r.t with ignore := ig } = idleOp known := by
            rw [defaultOp_at c (h.ignore ig)]; simp [idleOp]
          simp only [Stop.event]
          split
          · simp only [dispatch]
            rw [finish_false _ _ _ _ (by exact h.delayed)]
            exact ⟨_, _, by rw [he], h.ignore ig⟩
          · simp only [dispatch, if_neg hz]
            rw [finish_false _ _ _ _ (by exact h.delayed)]
            exact ⟨_, _, by rw [he], h.ignore ig⟩
        obtain ⟨sig', t', hd, hat⟩ := hd
        rw [hit_resumed hd]
        dsimp only [Option.bind_some]
        simp only [List.append_nil]
        exact ih hl' ⟨t', idleOp known, r.log⟩ known n p hat rfl
    | call k =>
      obtain ⟨hin, hex, htab⟩ := ha
      simp only [acts, act, expectedLog]
      cases hF : F k.pers k.n with
      | true =>
        have htab := htab hF
        obtain ⟨t1, h1, hat1⟩ := enter_traced c hc F r k h hop hF (by
          intro hd
          rcases htab with h | h
          · exact h
          · rw [h.2] at hd; simp at hd)
        rw [h1, Option.bind_some]
        obtain ⟨t2, h2, hat2⟩ := inside_spec c hc hx (entrySys k) k.inner
          ⟨t1, .syscall, r.log ++ [.entry k.n]⟩ hat1 (by
            rcases htab with h | h
            · right
              rw [defaultOp_at c hat1]
              simp [h]
            · exact Or.inl h.1) hin (fun _ => rfl)
        rw [h2]
        dsimp only [Option.bind_some]
        rw [syscallStop, if_pos rfl]
        obtain ⟨t3, h3, hat3⟩ := hit_exit c hc ⟨t2, .syscall, r.log ++ [.entry k.n]⟩ k hat2
        rw [h3]
        dsimp only [Option.bind_some]
        obtain ⟨r', h4, h5, h6⟩ := ih hl' ⟨t3, idleOp true, r.log ++ [.entry k.n] ++ [.exit k.n]⟩ true _ _ hat3 rfl
        refine ⟨r', h4, ?_, h6⟩
        rw [h5]
        simp
      | false =>
        obtain ⟨t1, hf, ht⟩ := enter_untraced c hc F r k h hop hF
        cases hkn : known with
        | false =>
          obtain ⟨h1, hat1⟩ := hf hkn
          rw [h1, Option.bind_some]
          obtain ⟨t2, h2, hat2⟩ := inside_spec c hc hx (entrySys k) k.inner
            ⟨t1, .syscall, r.log ++ [.entry k.n]⟩ hat1 (by
              right
              rw [defaultOp_at c hat1]
              simp) hin (fun _ => rfl)
          rw [h2]
          dsimp only [Option.bind_some]
          rw [syscallStop, if_pos rfl]
          obtain ⟨t3, h3, hat3⟩ := hit_exit c hc ⟨t2, .syscall, r.log ++ [.entry k.n]⟩ k hat2
          rw [h3]
          dsimp only [Option.bind_some]
          obtain ⟨r', h4, h5, h6⟩ := ih hl' ⟨t3, idleOp false, r.log ++ [.entry k.n] ++ [.exit k.n]⟩ false _ _ hat3 rfl
          refine ⟨r', h4, ?_, h6⟩
          rw [h5]
          simp
        | true =>
          rw [ht hkn, Option.bind_some]
          obtain ⟨t2, h2, hat2⟩ := inside_spec c hc hx (entrySys k) k.inner r h (by
            right; rw [hdef, hop]) hin (fun hm => by rw [hex hm] at hF; simp at hF)
          rw [h2]
          dsimp only [Option.bind_some]
          rw [syscallStop, if_neg (by rw [hop, hkn]; simp [idleOp])]
          dsimp only [Option.bind_some]
          rw [hkn] at hat2
          obtain ⟨r', h4, h5, h6⟩ := ih hl' ⟨t2, r.op, r.log⟩ true _ _ hat2 (by rw [hop, hkn])
          refine ⟨r', h4, ?_, h6⟩
          rw [h5]
          simp

/-- settings for the examples: call 59 (execve) and 57 (fork) are traced for personality 0, 11 for 1 -/
def exCfg (before : Bool) : Cfg :=
  ⟨true, before, false, 133, fun _ => 400, fun p n => (p == 0 && (n == 59 || n == 57)) || (p == 1 && n == 11)⟩

def exTcb (filt : Bool) : Tcb := ⟨false, false, filt, false, false, 0, 0⟩

/-- the hypotheses are met in both kernel orders: an untraced call, a traced one with a fork event and
delays, a signal, an exec, another untraced one -/
example : ∀ before known, (∀ a ∈ [Act.call ⟨0, 0, [], false, false, 0, 0, false⟩,
      .call ⟨57, 0, [.child 1], true, true, 10, 0, false⟩, .call ⟨57, 0, [], true, true, 0, 0, true⟩, .signal 15, .group 20, .call ⟨59, 0, [.exec], false, false, 0, 0, false⟩,
      .call ⟨1, 0, [], false, false, 0, 0, false⟩], a.ok (exCfg before) (exCfg before).traced) ∧
    ((acts (exCfg before) before (exCfg before).traced ⟨exTcb known, idleOp known, []⟩
      [.call ⟨0, 0, [], false, false, 0, 0, false⟩,
      .call ⟨57, 0, [.child 1], true, true, 10, 0, false⟩, .call ⟨57, 0, [], true, true, 0, 0, true⟩, .signal 15, .group 20, .call ⟨59, 0, [.exec], false, false, 0, 0, false⟩,
      .call ⟨1, 0, [], false, false, 0, 0, false⟩]).map Run.log =
    some ((if known then [] else [.entry 0, .exit 0]) ++ [.entry 57, .exit 57, .entry 57, .exit 57, .entry 59, .exit 59])) := by
  intro before known
  constructor
  · intro a ha
    simp only [List.mem_cons, List.not_mem_nil, or_false] at ha
    rcases ha with rfl | rfl | rfl | rfl | rfl | rfl | rfl <;>
      simp [Act.ok, exCfg, stopping, Stop.ok]
  · cases before <;> cases known <;> decide +kernel

/-! ### Where the code goes wrong -/

/-- **C17, finding.**  When a thread other than the leader execs, the restart request is chosen from the
leader's record: with a filter, if the leader is not inside a traced call, the new process is restarted so
that the exit of its execve is not reported, although its record says that it is inside execve. -/
theorem exec_switch_op (c : Cfg) (cur : Nat) (leader thread : Tcb) (s : Sys) (status : Nat)
    (hx : c.detachExec = false) (hf : leader.filt = true) (hd : thread.delayed = false) :
    dispatch c cur false leader (some thread) s .beforeExecve status =
      ⟨.resumed (if leader.insys = true ∧ leader.scno < c.nsys cur ∧ c.traced cur leader.scno = true
        then .syscall else .cont) 0, thread, []⟩ := by
  simp only [dispatch, onExec, execDetach, hx, Bool.false_eq_true, if_false]
  rw [finish_false _ _ _ _ hd]
  simp [defaultOp, hf, filterOp]

/-- such a case, and what follows: the next traced call's entry is taken for the exit of execve -/
theorem exec_switch_missed :
    ∃ (leader thread : Tcb), leader.insys = false ∧ thread.insys = true ∧ thread.scno = 59 ∧
      (dispatch (exCfg false) 0 false leader (some thread) ⟨0, 0, 0, false, 0, 0⟩ .beforeExecve
        (Stop.status true .exec)).out = .resumed .cont 0 ∧
      (acts (exCfg false) false (exCfg false).traced ⟨thread, .cont, []⟩
        [.call ⟨57, 0, [], false, false, 0, 0, false⟩]).map Run.log = some [.exit 59] :=
  ⟨exTcb true, { exTcb true with insys := true, scno := 59 }, by decide +kernel⟩

/-- **C17, finding.**  A call number beyond strace's table that the filter stops, with a fork event inside:
its exit is missed. -/
theorem beyond_table_missed :
    (acts (exCfg false) false (fun _ n => decide (n = 500)) ⟨exTcb true, .cont, []⟩
      [.call ⟨500, 0, [.child 1], false, false, 0, 0, false⟩]).map Run.log = some [.entry 500] := by decide +kernel

/-- **C17, finding.**  The end of a delay is handled with whatever personality is current: if the traced
sets differ, the exit of the delayed call is missed. -/
theorem delayed_wrong_personality :
    (restartDelayed (exCfg false) 1 { exTcb true with insys := true, scno := 57, delayed := true }
      ⟨0, 0, 0, false, 0, 0⟩).out = .resumed .cont 0 ∧
    (restartDelayed (exCfg false) 0 { exTcb true with insys := true, scno := 57, delayed := true }
      ⟨0, 0, 0, false, 0, 0⟩).out = .resumed .syscall 0 := by decide +kernel

/-! ### C62, injected signals -/

/-- **C62 (partial: no delay is injected into the same call).**  A signal injected into a call is delivered
when the tracee leaves the entry stop. -/
theorem inject_signal_partial (c : Cfg) (hc : c.trap = 133) (t : Tcb) (s : Sys) (hin : t.insys = false)
    (hd : t.delayed = false) (hs : s.decode = 1) (hr : 0 ≤ s.res) (hnd : s.delay = false) :
    ∃ op t', deliver c false t none s (Stop.status c.seize .syscall) false = ⟨.resumed op s.sig, t', [.entry s.scno]⟩ := by
  obtain ⟨ig, h⟩ := deliver_syscall c hc t s
  simp only [Stop.noInfo] at h
  rw [h]
  have htr : traceSyscall { t with ignore := ig } s = ⟨s.res, s.sig, { t with
      ignore := ig, insys := true, scno := s.scno, pers := s.pers, delayed := false }, [.entry s.scno]⟩ := by
    simp [traceSyscall, traceEntering, hin, hs, hd, hnd]
  unfold onSyscall
  rw [htr, if_neg (by simpa using hr), finish_false _ _ _ _ rfl]
  exact ⟨_, _, rfl⟩

/-- **C62, finding.**  With a delay injected on entry of the same call the injected signal is lost, whatever
it is: the tracee is kept, and later resumed with no signal. -/
theorem delay_loses_signal (c : Cfg) (hc : c.trap = 133) (t : Tcb) (s : Sys) (hin : t.insys = false)
    (hs : s.decode = 1) (hr : 0 ≤ s.res) (hde : s.delay = true) (cur : Nat) (s' : Sys) :
    ∃ t', deliver c false t none s (Stop.status c.seize .syscall) false = ⟨.held, t', [.entry s.scno]⟩ ∧
      ∃ op t'', restartDelayed c cur t' s' = ⟨.resumed op 0, t'', []⟩ := by
  obtain ⟨ig, h⟩ := deliver_syscall c hc t s
  simp only [Stop.noInfo] at h
  rw [h]
  have htr : traceSyscall { t with ignore := ig } s = ⟨s.res, s.sig, { t with
      ignore := ig, insys := true, scno := s.scno, pers := s.pers, delayed := true }, [.entry s.scno]⟩ := by
    simp [traceSyscall, traceEntering, hin, hs, hde]
  unfold onSyscall
  rw [htr, if_neg (by simpa using hr), finish, if_neg (by simp), if_pos rfl]
  exact ⟨_, rfl, _, _, restartDelayed_at c s'⟩

/-- the hypotheses are met: kill -USR1 (10) at the entry of call 57, without and with a delay -/
example : (deliver (exCfg false) false (exTcb false) none ⟨1, 0, 10, false, 57, 0⟩ (Stop.status true .syscall)
      false).out = .resumed .syscall 10 ∧
    (deliver (exCfg false) false (exTcb false) none ⟨1, 0, 10, true, 57, 0⟩ (Stop.status true .syscall)
      false).out = .held := by decide +kernel

end Strace.Ev
