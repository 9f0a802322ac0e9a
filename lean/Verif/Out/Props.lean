import Verif.Out.Text
/-!
# C24, C25: the shared log

All tracees write to one file (no -ff), without a status filter.
-/
namespace Strace.Out

/-- the log after a history -/
def logOf (c : Cfg) (ops : List Op) : List Tok := (St.init.run c ops).files 0

/-- nothing but the log is written, nothing is held back -/
theorem nothing_elsewhere {c : Cfg} (hs : c.sep = false) (hg : c.staging = false) {ops : List Op} {ph : Phases}
    (h : Phases.init.run ops = some ph) (i : Nat) :
    ((St.init.run c ops).recs i).out = 0 ∧ ((St.init.run c ops).recs i).staged = none :=
  ⟨((run_inv Inv.init hs hg ops h).flat i).2, ((run_inv Inv.init hs hg ops h).flat i).1⟩

/-- C24: at any time the log consists of whole lines, each with one leader and text about one tracee, and possibly
the beginning of one more, that of the tracee whose turn it is -/
theorem shared_log_lines {c : Cfg} (hs : c.sep = false) (hg : c.staging = false) {ops : List Op} {ph : Phases}
    (h : Phases.init.run ops = some ph) :
    IsLog (logOf c ops) none ∨ ∃ i, (St.init.run c ops).prt = some i ∧ IsLog (logOf c ops) (some i) := by
  have hi := run_inv Inv.init hs hg ops h
  rcases hi.log with ⟨j, h1, h2⟩ | ⟨_, h2⟩
  · exact Or.inr ⟨j, hi.one j h1, h2⟩
  · exact Or.inl h2

/-- C24: nothing is lost, doubled or reordered: the informative text of the log is what the events say -/
theorem shared_log_content {c : Cfg} (hs : c.sep = false) (hg : c.staging = false) {ops : List Op} {ph : Phases}
    (h : Phases.init.run ops = some ph) : SaysAll c.quiet Phases.init ops (content (logOf c ops)) := by
  obtain ⟨⟨x, x1, x2⟩, _⟩ := run_text (p := fun _ => 0) Inv.init hs hg ops h (by intro i hi; simp [Phases.init, Phase.alive] at hi)
  have : logOf c ops = x := by rw [show logOf c ops = (St.init.run c ops).files 0 from rfl, x1]; rfl
  rw [this]
  exact x2

theorem phases_run_append (ph : Phases) (a b : List Op) :
    ph.run (a ++ b) = (ph.run a).bind fun q => q.run b := by
  induction a generalizing ph with
  | nil => rfl
  | cons o a ih =>
    simp only [List.cons_append, Phases.run]
    cases ph.step o with
    | none => rfl
    | some q => exact ih q

theorem run_append (c : Cfg) (st : St) (a b : List Op) : st.run c (a ++ b) = (st.run c a).run c b := by
  simp [St.run]

/-- C24: text that was written stays, and every leader written shows the process ID its tracee has -/
theorem shared_log_leaders {c : Cfg} (hs : c.sep = false) (hg : c.staging = false) {ops : List Op} {o : Op}
    {ph : Phases} (h : Phases.init.run (ops ++ [o]) = some ph) :
    ∃ x, logOf c (ops ++ [o]) = logOf c ops ++ x ∧
      ∀ i pid, (⟨i, .lead pid⟩ : Tok) ∈ x → pid = pidsRun (fun _ => 0) (ops ++ [o]) i := by
  rw [phases_run_append] at h
  cases h1 : Phases.init.run ops with
  | none => rw [h1] at h; simp at h
  | some q =>
    rw [h1] at h
    simp only [Option.bind_some, Phases.run] at h
    cases h2 : q.step o with
    | none => rw [h2] at h; simp at h
    | some q' =>
      obtain ⟨_, hp⟩ := run_text (p := fun _ => 0) Inv.init hs hg ops h1 (by intro i hi; simp [Phases.init, Phase.alive] at hi)
      obtain ⟨⟨x, x1, _, x3⟩, _⟩ := step_text (run_inv Inv.init hs hg ops h1) hs hg o h2 _ hp
      refine ⟨x, ?_, ?_⟩
      · unfold logOf
        rw [run_append]
        exact x1
      · intro i pid hm
        have := x3 _ hm pid rfl
        rw [this]
        simp [pidsRun]

/-- C25: the text about each tracee, in order, is a sequence of calls and notes; a call that was cut off is resumed
before the next one, under its own name, exactly once; between calls nothing is left cut off -/
theorem calls_resumed_once {c : Cfg} (hs : c.sep = false) (hg : c.staging = false) {ops : List Op} {ph : Phases}
    (h : Phases.init.run ops = some ph) (i : Nat) :
    ∃ a, A.run .idle (about i (logOf c ops)) = some a ∧ (ph i = .idle → a = .idle) := by
  have hi := (run_inv Inv.init hs hg ops h).recs i
  obtain ⟨a, ha⟩ := hi.some
  refine ⟨a, ha, ?_⟩
  intro hid
  rw [hid, ha] at hi
  have := hi.2.1
  injection this

/-! ### A call during which nothing else happens -/

/-- nobody waits for a second part because of an exec -/
def NoRep (st : St) : Prop := ∀ j, (st.recs j).reprint = false

theorem NoRep.upd {st : St} (h : NoRep st) (i : Nat) (g : Rec → Rec) (hg : ∀ r, r.reprint = false → (g r).reprint = false) :
    NoRep (st.upd i g) := by
  intro j
  simp only [St.upd]
  split
  · exact hg _ (h i)
  · exact h j

theorem NoRep.same {st st' : St} (h : NoRep st) (e : st'.recs = st.recs) : NoRep st' := by
  intro j
  rw [e]
  exact h j

theorem NoRep.write {st : St} (h : NoRep st) (i : Nat) (l : List Tok) : NoRep (st.write i l) := by
  unfold St.write
  split
  · exact h.upd i _ (by intro r hr; exact hr)
  · exact h

theorem NoRep.put {st : St} (h : NoRep st) (i : Nat) (k : Kind) (w : Nat) : NoRep (st.put i k w) := by
  unfold St.put
  split
  · exact h
  · exact (h.write _ _).upd _ _ (by intro r hr; exact hr)

theorem NoRep.lineEnded {st : St} (h : NoRep st) : NoRep st.lineEnded := by
  have h1 : NoRep st.endCur := by
    unfold St.endCur
    split
    · exact h
    · exact h.upd _ _ (by intro r hr; exact hr)
  unfold St.lineEnded St.endPrt
  split
  · exact h1
  · rename_i p _
    exact (h1.upd p (fun r => { r with col := 0 }) (by intro r hr; exact hr)).same rfl

theorem NoRep.closeLine {st : St} (h : NoRep st) (i : Nat) : NoRep (st.closeLine i) := by
  unfold St.closeLine
  have h1 : NoRep (st.setCur i) := h
  exact ((h1.put _ _ _).put _ _ _).upd _ _ (by intro r hr; exact hr)

theorem NoRep.leader {st : St} (h : NoRep st) (c : Cfg) (i : Nat) : NoRep (st.leader c i) := by
  have h1 : NoRep (st.cut c i) := by
    unfold St.cut
    split
    · exact h
    · split
      · exact h.closeLine _
      · exact h
  unfold St.leader
  have h2 : NoRep ({ st.cut c i with prt := some i, cur := some i } : St) := h1
  exact (h2.upd i _ (by intro r hr; exact hr)).put _ _ _

theorem NoRep.resume {st : St} (h : NoRep st) (c : Cfg) (i : Nat) : NoRep (st.resume c i) := by
  unfold St.resume
  split
  · have := ((h.upd i (fun r => { r with reprint := false }) (by intro r _; rfl)).leader c i).put i (.resumed (st.recs i).n) 1
    exact this
  · exact h

theorem NoRep.closeMem {st : St} (h : NoRep st) (i : Nat) (b : Bool) : NoRep (st.closeMem i b) := by
  unfold St.closeMem
  split
  · exact h
  · split
    · exact (h.upd i (fun r => { r with staged := none }) (by intro r hr; exact hr)).same rfl
    · exact h.upd i _ (by intro r hr; exact hr)

theorem NoRep.step {st : St} (h : NoRep st) (c : Cfg) (o : Op) (ho : ∀ l t k, o ≠ .switch l t k) :
    NoRep (st.step c o) := by
  have hc : ∀ i, NoRep (st.setCur i) := fun i => h
  cases o with
  | start i pid out =>
    simp only [St.step, St.start]
    exact h.upd i _ (by intro r _; rfl)
  | enter i n f =>
    simp only [St.step, St.enter]
    split
    · exact (hc i).upd i _ (by intro r hr; exact hr)
    · refine NoRep.upd (NoRep.put (NoRep.leader (NoRep.upd ?_ i _ (by intro r hr; exact hr)) c i) _ _ _) i _ (by intro r hr; exact hr)
      split
      · exact (hc i).upd i _ (by intro r hr; exact hr)
      · exact hc i
  | enterErr i n =>
    simp only [St.step, St.enterErr]
    exact ((((hc i).upd i _ (by intro r hr; exact hr)).leader c i).put _ _ _).upd i _ (by intro r hr; exact hr)
  | exit i res =>
    simp only [St.step, St.exit]
    refine NoRep.upd ?_ i _ (by intro r hr; exact hr)
    have hr := (hc i).resume c i
    split
    · exact hc i
    · split
      · split
        · exact (((hr.put _ _ _).put _ _ _).closeMem _ _).lineEnded
        · exact ((hr.put _ _ _).put _ _ _).lineEnded
      · split
        · split
          · exact ((((hr.put _ _ _).closeMem _ _).put _ _ _).put _ _ _).lineEnded
          · exact ((hr.put _ _ _).closeMem _ _).lineEnded
        · exact (((hr.put _ _ _).put _ _ _).put _ _ _).lineEnded
  | note i k => exact ((((hc i).leader c i).put _ _ _).put _ _ _).lineEnded
  | eventExit i =>
    simp only [St.step, St.eventExit]
    have h1 : NoRep ((st.setCur i).cutOther c i) := by
      unfold St.cutOther
      split
      · exact hc i
      · split
        · exact (hc i).closeLine _
        · exact hc i
    have hr := h1.resume c i
    split
    · exact hc i
    · split
      · exact (((hr.put _ _ _).put _ _ _).closeMem _ _).lineEnded
      · exact ((hr.put _ _ _).put _ _ _).lineEnded
  | drop i =>
    simp only [St.step, St.drop]
    have h1 : ∀ s b, NoRep s → NoRep (s.dropText c i b) := by
      intro s b hs
      unfold St.dropText
      by_cases hq : (if c.sep = true then (s.recs i).col ≠ 0 else s.prt = some i ∧ (s.recs i).col ≠ 0) ∧ b = true
      · rw [if_pos hq]; exact hs.write _ _
      · rw [if_neg hq]; exact hs
    have h2 : NoRep (if c.staging = true then st.closeMem i (c.set .detached) else st) := by
      split
      · exact h.closeMem _ _
      · exact h
    exact ((h1 _ (if c.staging = true then c.set .detached else true) h2).upd i
      (fun _ => ⟨0, 0, 0, none, false, false, false, 0⟩) (by intro r _; rfl)).same rfl
  | switch l t k => exact absurd rfl (ho l t k)

theorem NoRep.run {st : St} (h : NoRep st) (c : Cfg) (ops : List Op) (ho : ∀ l t k, Op.switch l t k ∉ ops) :
    NoRep (st.run c ops) := by
  induction ops generalizing st with
  | nil => exact h
  | cons o ops ih =>
    refine ih (h.step c o ?_) ?_
    · intro l t k e
      exact ho l t k (by rw [e]; simp)
    · intro l t k hm
      exact ho l t k (by simp [hm])

/-- C25: a call during which nothing else happens is one line, provided no thread has replaced a leader by exec
(`exec_splits_next` shows what happens otherwise) -/
theorem uninterrupted_one_line_partial {c : Cfg} (hs : c.sep = false) (hg : c.staging = false) {ops : List Op}
    {i n : Nat} {s : Status} {ph : Phases} (h : Phases.init.run (ops ++ [.enter i n false, .exit i (some s)]) = some ph)
    (hsw : ∀ l t k, Op.switch l t k ∉ ops) :
    ∃ x, logOf c (ops ++ [.enter i n false, .exit i (some s)]) = logOf c ops ++ x ++
        [⟨i, .lead (pidsRun (fun _ => 0) ops i)⟩, ⟨i, .call n⟩, ⟨i, .rest⟩, ⟨i, .ret⟩, ⟨i, .nl⟩] ∧
      (x = [] ∨ ∃ j, x = [⟨j, .unfin⟩, ⟨j, .nl⟩]) := by
  rw [phases_run_append] at h
  cases h1 : Phases.init.run ops with
  | none => rw [h1] at h; simp at h
  | some q =>
    rw [h1] at h
    simp only [Option.bind_some, Phases.run] at h
    cases h2 : q.step (.enter i n false) with
    | none => rw [h2] at h; simp at h
    | some q' =>
      obtain ⟨_, hp⟩ := run_text (p := fun _ => 0) Inv.init hs hg ops h1 (by intro i hi; simp [Phases.init, Phase.alive] at hi)
      have hinv := run_inv Inv.init hs hg ops h1
      have hinv' := step_inv hinv hs hg _ h2
      have hnr : NoRep (St.init.run c ops) := NoRep.run (fun j => rfl) c ops hsw
      have hnr' := hnr.step c (.enter i n false) (by simp)
      unfold logOf
      rw [run_append]
      generalize St.init.run c ops = st at *
      have hph : q i = .idle ∧ q' = q.set i (.inCall n true) := by
        simp only [Phases.step] at h2
        split at h2
        · rename_i hc
          injection h2 with h2
          exact ⟨hc, h2.symm⟩
        · simp at h2
      have b1 : (st.enter c i n false).files 0 = st.files 0 ++ (closing (fun j => (st.recs j).col) st.prt ++
          [⟨i, .lead (st.recs i).pid⟩, ⟨i, .call n⟩]) := by
        simp only [St.enter, hg, Bool.false_eq_true, if_false]
        exact (begin_text hinv hs i n (fun r => { r with n := n, filtered := false })
          (fun r => ⟨rfl, rfl, rfl⟩) (fun r => rfl)).1
      have hprt : (st.enter c i n false).prt = some i := by
        have hr : ((st.enter c i n false).recs i).col ≠ 0 ∨ ((st.enter c i n false).recs i).col = 0 := by omega
        have h3 := hinv'.recs i
        rw [hph.2, set_eq] at h3
        simp only [RecInv, if_true] at h3
        rcases h3.2.2.2 with h4 | h4
        · exact hinv'.one i h4.1
        · rcases h4.2.2 with h5 | h5
          · have := hnr' i
            rw [h5] at this
            simp at this
          · have ht := h4.2.1
            exfalso
            have hi0 := hinv.recs i
            rw [hph.1] at hi0
            have e := txt_self (st' := st.enter c i n false) hinv.one b1 hi0.2.1 (a' := .idle) (by rw [if_neg (by simp [hi0.1])]; rfl)
            have e2 : txt (st.step c (.enter i n false)) i = some (.inC n) := by
              show txt (st.enter c i n false) i = _
              rw [e]; simp [about, A.run, A.step]
            rw [e2] at ht
            simp at ht
      have h3 := hinv'.recs i
      rw [hph.2, set_eq] at h3
      simp only [RecInv, if_true] at h3
      have hex : (st.step c (.enter i n false)).exit c i (some s) =
          ((((((st.step c (.enter i n false)).setCur i).resume c i).puts i ([.rest, .ret] ++ [.nl])).lineEnded).upd i
            fun r => { r with insys := false }) := by
        unfold St.exit
        rw [if_neg (by simp [h3.1])]
        simp only [hg, Bool.false_eq_true, if_false]
        rfl
      obtain ⟨_, _, _, _, _, _, _, _, h9⟩ := complete_spec hinv' hs i n h3.2.2.1 h3.2.2.2 [.rest, .ret] tail_ok.1 _ (Or.inl rfl)
      have hfin : ((st.run c [.enter i n false, .exit i (some s)])).files 0 =
          (st.enter c i n false).files 0 ++ [⟨i, .rest⟩, ⟨i, .ret⟩, ⟨i, .nl⟩] := by
        show ((st.step c (.enter i n false)).exit c i (some s)).files 0 = _
        rw [hex]
        rcases h9 with ⟨_, _, h9⟩ | ⟨h9, _⟩
        · exact h9
        · rcases h9 with h9 | h9
          · exact absurd hprt h9
          · have := hnr' i
            rw [h9] at this
            simp at this
      refine ⟨closing (fun j => (st.recs j).col) st.prt, ?_, ?_⟩
      · rw [hfin, b1, hp i (by rw [hph.1]; rfl)]
        simp
      · cases st.prt with
        | none => exact Or.inl rfl
        | some j =>
          simp only [closing]
          split
          · exact Or.inr ⟨j, rfl⟩
          · exact Or.inl rfl

/-! ### Examples -/

/-- no -ff, no status filter -/
def plain : Cfg := ⟨false, false, fun _ => true, false, 1⟩

/-- two tracees whose calls overlap; a signal; an exit during a call; a detach -/
def busy : List Op :=
  [.start 0 100 0, .start 1 101 0, .enter 0 7 false, .enter 1 8 false, .exit 0 (some .successful), .note 1 9,
   .exit 1 (some .failed), .enter 0 3 true, .exit 0 (some .successful), .enter 1 5 false, .enter 0 4 false,
   .eventExit 1, .note 1 6, .drop 1, .drop 0]

theorem busy_valid : (Phases.init.run busy).isSome = true := by decide +kernel

theorem busy_log : logOf plain busy =
    [⟨0, .lead 100⟩, ⟨0, .call 7⟩, ⟨0, .unfin⟩, ⟨0, .nl⟩,
     ⟨1, .lead 101⟩, ⟨1, .call 8⟩, ⟨1, .unfin⟩, ⟨1, .nl⟩,
     ⟨0, .lead 100⟩, ⟨0, .resumed 7⟩, ⟨0, .rest⟩, ⟨0, .ret⟩, ⟨0, .nl⟩,
     ⟨1, .lead 101⟩, ⟨1, .note 9⟩, ⟨1, .nl⟩,
     ⟨1, .lead 101⟩, ⟨1, .resumed 8⟩, ⟨1, .rest⟩, ⟨1, .ret⟩, ⟨1, .nl⟩,
     ⟨1, .lead 101⟩, ⟨1, .call 5⟩, ⟨1, .unfin⟩, ⟨1, .nl⟩,
     ⟨0, .lead 100⟩, ⟨0, .call 4⟩, ⟨0, .unfin⟩, ⟨0, .nl⟩,
     ⟨1, .lead 101⟩, ⟨1, .resumed 5⟩, ⟨1, .never⟩, ⟨1, .nl⟩,
     ⟨1, .lead 101⟩, ⟨1, .note 6⟩, ⟨1, .nl⟩] := by decide +kernel

/-- exec by a thread, its line open, and a detach in the middle of a call -/
def execs : List Op :=
  [.start 0 100 0, .start 1 101 0, .eventExit 0, .enter 1 59 false, .switch 0 1 2, .exit 1 (some .successful),
   .enter 1 5 false, .drop 1]

theorem execs_valid : (Phases.init.run execs).isSome = true := by decide +kernel

theorem execs_log : logOf plain execs =
    [⟨1, .lead 101⟩, ⟨1, .call 59⟩, ⟨1, .pidChanged 100⟩, ⟨1, .nl⟩,
     ⟨1, .lead 100⟩, ⟨1, .note 2⟩, ⟨1, .nl⟩,
     ⟨1, .lead 100⟩, ⟨1, .resumed 59⟩, ⟨1, .rest⟩, ⟨1, .ret⟩, ⟨1, .nl⟩,
     ⟨1, .lead 100⟩, ⟨1, .call 5⟩, ⟨1, .detached⟩, ⟨1, .nl⟩] := by decide +kernel

/-- the hypotheses of `uninterrupted_one_line_partial` -/
theorem uninterrupted_example :
    (Phases.init.run (busy.take 9 ++ [.enter 1 5 false, .exit 1 (some .failed)])).isSome = true := by decide +kernel

/-- C25 (finding): if the exec of a thread is itself filtered out, the mark that it must be resumed stays and the next
call is torn apart although nothing happens in between -/
theorem exec_splits_next :
    let ops : List Op := [.start 0 100 0, .start 1 101 0, .eventExit 0, .enter 1 59 true, .switch 0 1 2,
      .exit 1 (some .successful)]
    (Phases.init.run (ops ++ [.enter 1 5 false, .exit 1 (some .successful)])).isSome = true ∧
    logOf plain (ops ++ [.enter 1 5 false, .exit 1 (some .successful)]) = logOf plain ops ++
      [⟨1, .lead 100⟩, ⟨1, .call 5⟩, ⟨1, .unfin⟩, ⟨1, .nl⟩,
       ⟨1, .lead 100⟩, ⟨1, .resumed 5⟩, ⟨1, .rest⟩, ⟨1, .ret⟩, ⟨1, .nl⟩] := by decide +kernel

end Strace.Out
