import Verif.Regs.Props
/-!
# Every history of stops is shown as it was
-/
namespace Strace.Regs

open Strace.Result (Pers)
open Strace.Regs.Spec

theorem startup_calm (E : Env) (s : St) (k : Kern) (pid : Nat) :
    (∀ q, ((startup E s k pid).tcbs q).insys = (s.tcbs q).insys) ∧
    (∀ q, q ≠ pid → ((startup E s k pid).tcbs q).startup = (s.tcbs q).startup) ∧
    ((startup E s k pid).tcbs pid).startup = false ∧
    (∀ q, q ≠ pid → ((startup E s k pid).tcbs q).currpers = (s.tcbs q).currpers) ∧
    ∃ l : List Line, (startup E s k pid).out = s.out ++ l ∧ l.filter isCall = [] := by
  unfold startup
  by_cases h : (s.tcbs pid).startup = true
  · rw [if_pos h]
    dsimp only
    generalize hs1 : (upd s pid fun t => { t with startup := false }) = s1
    have e1 : ∀ q, (s1.tcbs q).insys = (s.tcbs q).insys := by
      intro q; subst hs1; simp only [upd]; split <;> rfl
    have e2 : ∀ q, q ≠ pid → (s1.tcbs q).startup = (s.tcbs q).startup := by
      intro q hq; subst hs1; simp only [upd]; rw [if_neg hq]
    have e3 : (s1.tcbs pid).startup = false := by subst hs1; simp [upd]
    have e4 : ∀ q, q ≠ pid → (s1.tcbs q).currpers = (s.tcbs q).currpers := by
      intro q hq; subst hs1; simp only [upd]; rw [if_neg hq]
    have e5 : s1.out = s.out := by subst hs1; rfl
    by_cases hg : (s1.tcbs pid).grabbed = true
    · rw [if_pos hg]
      have hc := getScno_calm E s1 k pid
      obtain ⟨l, hl, hf⟩ := hc.out
      exact ⟨fun q => (hc.insys q).trans (e1 q), fun q hq => (hc.startup q).trans (e2 q hq), (hc.startup pid).trans e3,
        fun q hq => (hc.currpers q hq).trans (e4 q hq), l, by rw [hl, e5], hf⟩
    · rw [if_neg hg]
      exact ⟨e1, e2, e3, e4, [], by rw [e5]; simp, rfl⟩
  · rw [if_neg h]
    exact ⟨fun _ => rfl, fun _ _ => rfl, by simpa using h, fun _ _ => rfl, [], by simp, rfl⟩

/-- What is known after any part of a history: `ins` and `modes` are those of the specification. -/
structure Inv (R : Bool) (ins : Nat → Bool) (modes : Nat → Pers) (s : St) : Prop where
  way : WayOk R s
  insys : ∀ q, (s.tcbs q).insys = ins q
  startup : ∀ q, (s.tcbs q).startup = true → ins q = false
  modes : ∀ q, ins q = true → (s.tcbs q).currpers = modes q

theorem nextEvent_inv (E : Env) (R : Bool) (ins : Nat → Bool) (modes : Nat → Pers) (s : St) (k : Kern) (pid : Nat)
    (hk : Answers R k) (h : Inv R ins modes s) :
    Inv R ins modes (nextEvent E s k pid) ∧
    (nextEvent E s k pid).pers = ((nextEvent E s k pid).tcbs pid).currpers ∧
    (∃ l : List Line, (nextEvent E s k pid).out = s.out ++ l ∧ l.filter isCall = []) ∧
    (ins pid = true → (nextEvent E s k pid).sci = none ∧ (nextEvent E s k pid).regsErr = -1) := by
  obtain ⟨h1, h2, h3, h4, l, hl, hf⟩ := startup_calm E (clearRegs s) k pid
  have hns : ins pid = true → (s.tcbs pid).startup = false := by
    intro hi
    cases hst : (s.tcbs pid).startup
    · rfl
    · rw [h.startup pid hst] at hi; cases hi
  have hsame : ins pid = true → startup E (clearRegs s) k pid = clearRegs s := by
    intro hi
    unfold startup
    rw [if_neg (by show ¬ ((s.tcbs pid).startup = true); rw [hns hi]; decide)]
  refine ⟨⟨?_, ?_, ?_, ?_⟩, rfl, ⟨l, hl, hf⟩, ?_⟩
  · show WayOk R (startup E (clearRegs s) k pid)
    have hw : WayOk R (clearRegs s) := h.way
    unfold startup
    split
    · dsimp only
      split
      · exact getScno_way E R _ k pid hk hw
      · exact hw
    · exact hw
  · intro q
    exact (h1 q).trans (h.insys q)
  · intro q hq
    by_cases hqp : q = pid
    · subst hqp
      have : ((startup E (clearRegs s) k q).tcbs q).startup = true := hq
      rw [h3] at this; cases this
    · exact h.startup q ((h2 q hqp).symm.trans hq)
  · intro q hq
    by_cases hqp : q = pid
    · subst hqp
      show ((startup E (clearRegs s) k q).tcbs q).currpers = _
      rw [hsame hq]
      exact h.modes q hq
    · exact (h4 q hqp).trans (h.modes q hq)
  · intro hi
    show (startup E (clearRegs s) k pid).sci = none ∧ (startup E (clearRegs s) k pid).regsErr = -1
    rw [hsame hi]
    exact ⟨rfl, rfl⟩

/-- A call about to be read at a new stop. -/
theorem nextEvent_ready (E : Env) (R : Bool) (ins : Nat → Bool) (modes : Nat → Pers) (s : St) (t : Task) (op : Nat) (pid : Nat)
    (hop : op = 1 ∨ op = 3) (h : Inv R ins modes s) (hin : ins pid = false) (hr : Readable E R t) :
    Ready E (nextEvent E s (t.kern R op) pid) t op R pid := by
  have fresh : ∀ s0 : St, s0.sci = none → s0.regsErr = -1 → Ready E s0 t op R pid := by
    intro s0 ha hb
    unfold Ready
    split
    · exact ⟨hb, Or.inl ha⟩
    · exact Or.inl hb
  have lift : ∀ s0 : St, Ready E s0 t op R pid → (s0.sci = none ∨ E.infoOk = false ∨ True) →
      Ready E (setCurrent s0 pid) t op R pid := by
    intro s0 h0 _
    unfold Ready at h0 ⊢
    split at h0
    · rename_i hE
      rw [if_pos hE]
      refine ⟨h0.1, ?_⟩
      rcases h0.2 with h1 | ⟨h1, h2, _⟩
      · exact Or.inl h1
      · exact Or.inr ⟨h1, h2, h2⟩
    · rename_i hE
      rw [if_neg hE]
      exact h0
  unfold nextEvent
  apply lift _ _ (Or.inr (Or.inr trivial))
  unfold startup
  split
  · dsimp only
    split
    · generalize hs1 : (upd (clearRegs s) pid fun t => { t with startup := false }) = s1
      have hw : WayOk R s1 := by subst hs1; exact h.way
      have hi : (s1.tcbs pid).insys = false := by
        subst hs1; simp only [upd, clearRegs]; rw [if_pos trivial, ← hin]; exact h.insys pid
      obtain ⟨s', h1, _, _, h4, _⟩ := getScno_read E s1 t op R pid hop hw hi hr
        (fresh s1 (by subst hs1; rfl) (by subst hs1; rfl))
      rw [h1]; exact h4
    · exact fresh _ rfl rfl
  · exact fresh _ rfl rfl

theorem lines_ext (l1 l2 l3 : List Line) (h : l2.filter isCall = []) : (l1 ++ l2 ++ l3).filter isCall =
    l1.filter isCall ++ l3.filter isCall := by
  rw [List.filter_append, List.filter_append, h, List.append_nil]

theorem same_way {R : Bool} {s s' : St} (h : Same s s') (hw : WayOk R s) : WayOk R s' := by
  unfold WayOk; rw [h.useOld]; exact hw

/-- Entering a call. -/
theorem enter_step (E : Env) (R : Bool) (ins : Nat → Bool) (modes : Nat → Pers) (s : St) (t : Task) (sec : Bool) (pid : Nat)
    (h : Inv R ins modes s) (hin : ins pid = false) (hr : Readable E R t) :
    Inv R (fun q => if q = pid then true else ins q) (fun q => if q = pid then t.mode else modes q)
      (step E s ((SEv.enter pid t sec).ev R)) ∧
    (step E s ((SEv.enter pid t sec).ev R)).out.filter isCall =
      s.out.filter isCall ++ [.call pid t.mode t.number (t.args (E.cst t.mode t.number))] := by
  have hop : (if sec then 3 else 1) = 1 ∨ (if sec then 3 else 1) = 3 := by cases sec <;> simp
  generalize hop' : (if sec then 3 else 1) = op at hop
  have hk : Answers R (t.kern R op) := Or.inl ⟨t, op, rfl⟩
  obtain ⟨hn, hp, ⟨l, hl, hf⟩, _⟩ := nextEvent_inv E R ins modes s (t.kern R op) pid hk h
  have hready := nextEvent_ready E R ins modes s t op pid hop h hin hr
  generalize hs1 : nextEvent E s (t.kern R op) pid = s1 at hn hp hl hready
  have hi1 : (s1.tcbs pid).insys = false := by rw [hn.insys, hin]
  obtain ⟨s2, hg, hp2, hc2, _, ha⟩ := getScno_read E s1 t op R pid hop hn.way hi1 hr hready
  have hcalm := getScno_calm E s1 (t.kern R op) pid
  have hway := getScno_way E R s1 (t.kern R op) pid hk hn.way
  rw [hg] at hcalm hway
  have hle := printleader_same E s2 pid
  have hstep : step E s ((SEv.enter pid t sec).ev R) =
      upd (emit (printleader E s2 pid) (.call pid (printleader E s2 pid).pers t.number (getArgs E s2 t.number))) pid
        fun t => { t with mid := true, insys := true } := by
    show (if ((nextEvent E s (t.kern R (if sec then 3 else 1)) pid).tcbs pid).insys then _ else _) = _
    rw [hop', hs1, if_neg (by rw [hi1]; decide)]
    unfold entering
    rw [hg]
  obtain ⟨l2, hl2, hf2⟩ := hcalm.out
  obtain ⟨l3, hl3, hx3⟩ := hle.out
  rw [hstep]
  refine ⟨⟨?_, ?_, ?_, ?_⟩, ?_⟩
  · show WayOk R (printleader E s2 pid)
    exact same_way hle hway
  · intro q
    simp only [upd, emit]
    by_cases hq : q = pid
    · rw [if_pos hq, if_pos hq]
    · rw [if_neg hq, if_neg hq, hle.insys, hcalm.insys, hn.insys]
  · intro q hq
    by_cases hqp : q = pid
    · subst hqp
      exfalso
      simp only [upd, emit, if_true] at hq
      rw [hle.startup, hcalm.startup] at hq
      have h3 := (startup_calm E (clearRegs s) (t.kern R op) q).2.2.1
      rw [← hs1] at hq
      have : ((startup E (clearRegs s) (t.kern R op) q).tcbs q).startup = true := hq
      rw [h3] at this; cases this
    · rw [if_neg hqp]
      simp only [upd, emit] at hq
      rw [if_neg hqp, hle.startup, hcalm.startup] at hq
      exact hn.startup q hq
  · intro q hq
    simp only [upd, emit]
    by_cases hqp : q = pid
    · rw [if_pos hqp, if_pos hqp]
      subst hqp
      show ((printleader E s2 q).tcbs q).currpers = _
      rw [hle.currpers, hc2]
    · rw [if_neg hqp] at hq ⊢
      rw [if_neg hqp, hle.currpers, hcalm.currpers q hqp]
      exact hn.modes q hq
  · have : (upd (emit (printleader E s2 pid) (.call pid (printleader E s2 pid).pers t.number (getArgs E s2 t.number))) pid
        fun t => { t with mid := true, insys := true }).out =
        (printleader E s2 pid).out ++ [.call pid (printleader E s2 pid).pers t.number (getArgs E s2 t.number)] := rfl
    rw [this, hl3, hl2, hl, List.filter_append, List.filter_append, List.filter_append, List.filter_append, hf, hf2,
      unf_filter l3 hx3, printleader_pers, hc2, ha]
    simp [isCall]

theorem printResume_same (E : Env) (s : St) (pid : Nat) : Same s (printResume E s pid) := by
  unfold printResume
  split
  · have h1 := (printleader_same E s pid).trans (setMid_same (printleader E s pid) pid true)
    exact ⟨h1.sci, h1.regsErr, h1.useOld, h1.iov, h1.mem, h1.currpers, h1.insys, h1.startup, h1.grabbed, h1.out⟩
  · exact ⟨rfl, rfl, rfl, rfl, rfl, fun _ => rfl, fun _ => rfl, fun _ => rfl, fun _ => rfl, [], by simp, by simp⟩

theorem printResume_pers (E : Env) (s : St) (pid : Nat) (h : s.pers = (s.tcbs pid).currpers) :
    (printResume E s pid).pers = (s.tcbs pid).currpers := by
  unfold printResume
  split
  · show (printleader E s pid).pers = _
    exact printleader_pers E s pid
  · exact h

/-- What the registers answer when a call is left. -/
theorem regs_leave (E : Env) (R : Bool) (s : St) (t : Task) (pid : Nat) (hw : WayOk R s) (he : s.regsErr = -1)
    (hs : s.sci = none) (hi : (s.tcbs pid).insys = true) :
    (getSyscallRegs E s (t.kern R 2) pid).2 = 0 ∧
    (getSyscallRegs E s (t.kern R 2) pid).1.pers = s.pers ∧
    (getSyscallRegs E s (t.kern R 2) pid).1.tcbs = s.tcbs := by
  unfold getSyscallRegs
  rw [if_neg (by rw [he]; decide)]
  cases hE : E.infoOk
  · rw [if_neg (by decide)]
    obtain ⟨s', h1, _, h3, _, _⟩ := getRegs_ok s t R 2 hw he
    rw [h1]
    exact ⟨rfl, h3.pers, h3.tcbs⟩
  · rw [if_pos rfl]
    obtain ⟨i, hinf, hop⟩ : ∃ i : Sci, (t.kern R 2).info = some i ∧ i.op = 2 := ⟨_, rfl, rfl⟩
    have hp : persOfInfo i = none := by
      unfold persOfInfo
      rw [hop]; rfl
    have hg : getInfo E s (t.kern R 2) pid = ({ s with sci := some i }, true) := by
      unfold getInfo
      rw [hs, hinf]
      dsimp only
      rw [hp]
    rw [hg]
    dsimp only
    have hex : isExit E { s with sci := some i } = true := by
      unfold isExit
      rw [hE]
      simp [hop, OP_EXIT]
    rw [if_neg (by decide), hex, hi, if_pos (by simp)]
    exact ⟨rfl, rfl, rfl⟩

theorem regs_dead (E : Env) (s : St) (pid : Nat) (he : s.regsErr = -1) (hs : s.sci = none) :
    (getSyscallRegs E s deadKern pid).2 < 0 ∧ (getSyscallRegs E s deadKern pid).1.tcbs = s.tcbs := by
  unfold getSyscallRegs
  rw [if_neg (by rw [he]; decide)]
  cases hE : E.infoOk
  · rw [if_neg (by decide), (getRegs_dead s he).1]
    exact ⟨by decide, (getRegs_any s deadKern).tcbs⟩
  · rw [if_pos rfl]
    have hg : getInfo E s deadKern pid = ({ s with regsErr := -2 }, false) := by
      unfold getInfo
      rw [hs]
      rfl
    rw [hg]
    exact ⟨by show (-2 : Int) < 0; decide, rfl⟩

/-- Leaving a call: the line shown, for answers `k`. -/
theorem exit_step (E : Env) (R : Bool) (ins : Nat → Bool) (modes : Nat → Pers) (s : St) (k : Kern) (pid : Nat)
    (h : Inv R ins modes s) (hin : ins pid = true) (hk : Answers R k) (x : Line) (hx : isCall x = true)
    (hread : ∀ s1 : St, WayOk R s1 → s1.regsErr = -1 → s1.sci = none → (s1.tcbs pid).insys = true →
      s1.pers = modes pid → (s1.tcbs pid).currpers = modes pid →
      (getSyscallRegs E s1 k pid).1.tcbs = s1.tcbs ∧
      (if (getSyscallRegs E s1 k pid).2 < 0 then Line.lost pid
        else .ret pid (printResume E (getSyscallRegs E s1 k pid).1 pid).pers) = x) :
    Inv R (fun q => if q = pid then false else ins q) modes (step E s (.sys pid k)) ∧
    (step E s (.sys pid k)).out.filter isCall = s.out.filter isCall ++ [x] := by
  obtain ⟨hn, hp, ⟨l, hl, hf⟩, hfresh⟩ := nextEvent_inv E R ins modes s k pid hk h
  have hfresh := hfresh hin
  generalize hs1 : nextEvent E s k pid = s1 at hn hp hl hfresh
  have hi1 : (s1.tcbs pid).insys = true := by rw [hn.insys, hin]
  have hm : (s1.tcbs pid).currpers = modes pid := hn.modes pid hin
  -- the mode is in force already
  have hup : updatePersonality E s1 pid (s1.tcbs pid).currpers = s1 := by
    unfold updatePersonality
    rw [if_pos (show (s1.tcbs pid).currpers = ((setPersonality s1 (s1.tcbs pid).currpers).tcbs pid).currpers from rfl)]
    unfold setPersonality
    rw [← hp]
  obtain ⟨htc, hline⟩ := hread s1 hn.way hfresh.2 hfresh.1 hi1 (hp.trans hm) hm
  have hcalm := getSyscallRegs_calm E s1 k pid
  have hway := getSyscallRegs_way E R s1 k pid hk hn.way
  have hstep : step E s (.sys pid k) =
      upd (lineEnded (emit (printResume E (getSyscallRegs E s1 k pid).1 pid) x)) pid fun t => { t with insys := false } := by
    show (if ((nextEvent E s k pid).tcbs pid).insys then _ else _) = _
    rw [hs1, if_pos hi1]
    unfold exiting
    dsimp only
    rw [hup, hline]
  generalize hr : (getSyscallRegs E s1 k pid).1 = r at *
  have hpr := printResume_same E r pid
  have hle := lineEnded_same (emit (printResume E r pid) x)
  obtain ⟨l2, hl2, hf2⟩ := hcalm.out
  obtain ⟨l3, hl3, hx3⟩ := hpr.out
  rw [hstep]
  refine ⟨⟨?_, ?_, ?_, ?_⟩, ?_⟩
  · show WayOk R (lineEnded (emit (printResume E r pid) x))
    apply same_way hle
    show WayOk R (printResume E r pid)
    exact same_way hpr hway
  · intro q
    simp only [upd]
    by_cases hq : q = pid
    · rw [if_pos hq, if_pos hq]
    · rw [if_neg hq, if_neg hq, hle.insys]
      show ((printResume E r pid).tcbs q).insys = _
      rw [hpr.insys, hcalm.insys, hn.insys]
  · intro q hq
    by_cases hqp : q = pid
    · rw [if_pos hqp]
    · rw [if_neg hqp]
      simp only [upd] at hq
      rw [if_neg hqp, hle.startup] at hq
      have hq' : ((printResume E r pid).tcbs q).startup = true := hq
      rw [hpr.startup, hcalm.startup] at hq'
      exact hn.startup q hq'
  · intro q hq
    simp only [upd]
    by_cases hqp : q = pid
    · rw [if_pos hqp] at hq; cases hq
    · rw [if_neg hqp] at hq ⊢
      rw [hle.currpers]
      show ((printResume E r pid).tcbs q).currpers = _
      rw [hpr.currpers, hcalm.currpers q hqp]
      exact hn.modes q hq
  · have : (upd (lineEnded (emit (printResume E r pid) x)) pid fun t => { t with insys := false }).out =
        (printResume E r pid).out ++ [x] := by
      show (lineEnded (emit (printResume E r pid) x)).out = _
      rw [lineEnded_out]; rfl
    rw [this, hl3, hl2, hl, List.filter_append, List.filter_append, List.filter_append, List.filter_append, hf, hf2,
      unf_filter l3 hx3]
    simp [hx]

/-- Stops for other reasons. -/
theorem other_step (E : Env) (R : Bool) (ins : Nat → Bool) (modes : Nat → Pers) (s : St) (k : Kern) (pid : Nat) (shown : Bool)
    (h : Inv R ins modes s) (hk : Answers R k) :
    Inv R ins modes (step E s (.other pid k shown)) ∧
    (step E s (.other pid k shown)).out.filter isCall = s.out.filter isCall := by
  obtain ⟨hn, hp, ⟨l, hl, hf⟩, _⟩ := nextEvent_inv E R ins modes s k pid hk h
  generalize hs1 : nextEvent E s k pid = s1 at hn hp hl
  cases shown
  · have hstep : step E s (.other pid k false) = s1 := by
      show nextEvent E s k pid = _
      exact hs1
    rw [hstep]
    refine ⟨hn, ?_⟩
    rw [hl, List.filter_append, hf, List.append_nil]
  · have hstep : step E s (.other pid k true) =
        lineEnded (emit (printleader E s1 pid) (.other pid (printleader E s1 pid).pers)) := by
      show lineEnded (emit (printleader E (nextEvent E s k pid) pid)
        (.other pid (printleader E (nextEvent E s k pid) pid).pers)) = _
      rw [hs1]
    rw [hstep]
    have hpl := printleader_same E s1 pid
    have hle := lineEnded_same (emit (printleader E s1 pid) (.other pid (printleader E s1 pid).pers))
    obtain ⟨l3, hl3, hx3⟩ := hpl.out
    refine ⟨⟨?_, ?_, ?_, ?_⟩, ?_⟩
    · apply same_way hle
      show WayOk R (printleader E s1 pid)
      exact same_way hpl hn.way
    · intro q
      rw [hle.insys]
      show ((printleader E s1 pid).tcbs q).insys = _
      rw [hpl.insys, hn.insys]
    · intro q hq
      rw [hle.startup] at hq
      have hq' : ((printleader E s1 pid).tcbs q).startup = true := hq
      rw [hpl.startup] at hq'
      exact hn.startup q hq'
    · intro q hq
      rw [hle.currpers]
      show ((printleader E s1 pid).tcbs q).currpers = _
      rw [hpl.currpers]
      exact hn.modes q hq
    · rw [lineEnded_out]
      show ((printleader E s1 pid).out ++ [Line.other pid (printleader E s1 pid).pers]).filter isCall = _
      rw [hl3, hl, List.filter_append, List.filter_append, List.filter_append, hf, unf_filter l3 hx3]
      simp [isCall]

theorem run_cons (E : Env) (s : St) (e : Ev) (es : List Ev) : run E s (e :: es) = run E (step E s e) es := rfl

theorem run_lines (E : Env) (R : Bool) (evs : List SEv) : ∀ (ins : Nat → Bool) (modes : Nat → Pers) (s : St),
    Inv R ins modes s → Turns ins evs → (∀ pid t sec, SEv.enter pid t sec ∈ evs → Readable E R t) →
    (run E s (evs.map (SEv.ev R))).out.filter isCall = s.out.filter isCall ++ lines E.cst modes evs := by
  induction evs with
  | nil => intro ins modes s _ _ _; simp [run, lines]
  | cons e es ih =>
    intro ins modes s h ht hr
    have hr' : ∀ pid t sec, SEv.enter pid t sec ∈ es → Readable E R t :=
      fun pid t sec hm => hr pid t sec (List.mem_cons_of_mem _ hm)
    rw [List.map_cons, run_cons]
    cases e with
    | new pid g =>
      rw [ih (fun q => if q = pid then false else ins q) modes _ ?_ ht hr']
      · show (s.out ++ [Line.new pid s.pers]).filter isCall ++ _ = _
        rw [List.filter_append]
        simp [isCall, lines]
      · refine ⟨h.way, ?_, ?_, ?_⟩
        · intro q
          show (if q = pid then _ else s.tcbs q).insys = _
          by_cases hq : q = pid
          · rw [if_pos hq, if_pos hq]
          · rw [if_neg hq, if_neg hq]; exact h.insys q
        · intro q hq
          have hq' : (if q = pid then (⟨s.pers, true, g, false, false⟩ : Tcb) else s.tcbs q).startup = true := hq
          by_cases hqp : q = pid
          · rw [if_pos hqp]
          · rw [if_neg hqp] at hq' ⊢; exact h.startup q hq'
        · intro q hq
          by_cases hqp : q = pid
          · rw [if_pos hqp] at hq; cases hq
          · rw [if_neg hqp] at hq
            show (if q = pid then _ else s.tcbs q).currpers = _
            rw [if_neg hqp]; exact h.modes q hq
    | drop pid =>
      rw [ih (fun q => if q = pid then false else ins q) modes _ ?_ ht hr']
      · rfl
      · refine ⟨h.way, ?_, ?_, ?_⟩
        · intro q
          show (if q = pid then _ else s.tcbs q).insys = _
          by_cases hq : q = pid
          · rw [if_pos hq, if_pos hq]
          · rw [if_neg hq, if_neg hq]; exact h.insys q
        · intro q hq
          have hq' : (if q = pid then (⟨.x64, false, false, false, false⟩ : Tcb) else s.tcbs q).startup = true := hq
          by_cases hqp : q = pid
          · rw [if_pos hqp]
          · rw [if_neg hqp] at hq' ⊢; exact h.startup q hq'
        · intro q hq
          by_cases hqp : q = pid
          · rw [if_pos hqp] at hq; cases hq
          · rw [if_neg hqp] at hq
            show (if q = pid then _ else s.tcbs q).currpers = _
            rw [if_neg hqp]; exact h.modes q hq
    | enter pid t sec =>
      obtain ⟨h1, h2⟩ := enter_step E R ins modes s t sec pid h ht.1 (hr pid t sec (List.mem_cons_self ..))
      rw [ih _ _ _ h1 ht.2 hr', h2, List.append_assoc]
      rfl
    | leave pid t =>
      obtain ⟨h1, h2⟩ := exit_step E R ins modes s (t.kern R 2) pid h ht.1 (Or.inl ⟨t, 2, rfl⟩) (.ret pid (modes pid)) rfl
        (by
          intro s1 hw he hs hi hp hc
          obtain ⟨a1, a2, a3⟩ := regs_leave E R s1 t pid hw he hs hi
          refine ⟨a3, ?_⟩
          rw [if_neg (by rw [a1]; decide), printResume_pers, a3, hc]
          rw [a2, a3, hp, hc])
      show (run E (step E s (.sys pid (t.kern R 2))) _).out.filter isCall = _
      rw [ih _ _ _ h1 ht.2 hr', h2, List.append_assoc]
      rfl
    | dead pid =>
      obtain ⟨h1, h2⟩ := exit_step E R ins modes s deadKern pid h ht.1 (Or.inr rfl) (.lost pid) rfl
        (by
          intro s1 hw he hs hi hp hc
          obtain ⟨a1, a2⟩ := regs_dead E s1 pid he hs
          exact ⟨a2, by rw [if_pos a1]⟩)
      show (run E (step E s (.sys pid deadKern)) _).out.filter isCall = _
      rw [ih _ _ _ h1 ht.2 hr', h2, List.append_assoc]
      rfl
    | other pid t shown =>
      obtain ⟨h1, h2⟩ := other_step E R ins modes s (t.kern R 0) pid shown h (Or.inl ⟨t, 0, rfl⟩)
      show (run E (step E s (.other pid (t.kern R 0) shown)) _).out.filter isCall = _
      rw [ih _ _ _ h1 ht hr', h2]
      rfl

/-- **C94.** For every history of stops of any number of tracees, each call is shown with the mode, the number and the
arguments that the kernel has for it, and each result in the mode of its call.  Missing from the full claim (see the
findings): calls that are not `Readable`. -/
theorem calls_read_partial (E : Env) (R : Bool) (evs : List SEv) (ht : Turns (fun _ => false) evs)
    (hr : ∀ pid t sec, SEv.enter pid t sec ∈ evs → Readable E R t) :
    (run E start (evs.map (SEv.ev R))).out.filter isCall = lines E.cst (fun _ => .x64) evs := by
  rw [run_lines E R evs (fun _ => false) (fun _ => .x64) start ?_ ht hr]
  · rfl
  · refine ⟨?_, fun _ => rfl, fun _ _ => rfl, fun _ _ => rfl⟩
    unfold WayOk start
    cases R <;> simp

end Strace.Regs
