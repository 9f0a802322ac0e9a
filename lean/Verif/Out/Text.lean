import Verif.Out.Ops2
namespace Strace.Out

theorem content_append (a b : List Tok) : content (a ++ b) = content a ++ content b := by
  simp [content]

theorem content_closing (col : Nat → Nat) (prt : Option Nat) : content (closing col prt) = [] := by
  cases prt with
  | none => rfl
  | some j =>
    simp only [closing]
    split <;> simp [content, Kind.content]

/-- every leader in the text shows the right process ID -/
def Leads (p : Nat → Nat) (x : List Tok) : Prop := ∀ t ∈ x, ∀ q, t.kind = .lead q → q = p t.who

theorem Leads.nil (p : Nat → Nat) : Leads p [] := by intro t ht; simp at ht

theorem Leads.append {p : Nat → Nat} {a b : List Tok} (h1 : Leads p a) (h2 : Leads p b) : Leads p (a ++ b) := by
  intro t ht
  rcases List.mem_append.mp ht with h | h
  · exact h1 t h
  · exact h2 t h

theorem Leads.cons {p : Nat → Nat} {t : Tok} {b : List Tok} (h1 : ∀ q, t.kind = .lead q → q = p t.who)
    (h2 : Leads p b) : Leads p (t :: b) := by
  intro u hu
  rcases List.mem_cons.mp hu with h | h
  · rw [h]; exact h1
  · exact h2 u h

theorem Leads.closing (p : Nat → Nat) (col : Nat → Nat) (prt : Option Nat) : Leads p (closing col prt) := by
  cases prt with
  | none => exact Leads.nil p
  | some j =>
    simp only [Strace.Out.closing]
    split
    · exact Leads.cons (by simp) (Leads.cons (by simp) (Leads.nil p))
    · exact Leads.nil p

/-- the text an event adds, and the process IDs after it -/
def Adds (c : Cfg) (ph ph' : Phases) (p : Nat → Nat) (o : Op) (st st' : St) : Prop :=
  (∃ x, st'.files 0 = st.files 0 ++ x ∧ Says c.quiet ph o (content x) ∧ Leads (pidsStep p o) x) ∧
    ∀ i, (ph' i).alive = true → (st'.recs i).pid = pidsStep p o i

/-- the process IDs do not change unless a record does -/
theorem pids_same {ph : Phases} {st st' : St} {p : Nat → Nat} (hp : ∀ i, (ph i).alive = true → (st.recs i).pid = p i)
    (hr : ∀ j, (st'.recs j).pid = (st.recs j).pid) {i : Nat} {x : Phase} (hi : (ph i).alive = true) :
    ∀ j, (ph.set i x j).alive = true → (st'.recs j).pid = p j := by
  intro j hj
  rw [hr j]
  by_cases h : j = i
  · rw [h]; exact hp i hi
  · rw [set_ne h] at hj
    exact hp j hj

theorem upd_pid (st : St) (i : Nat) (g : Rec → Rec) (hg : ∀ r, (g r).pid = r.pid) (j : Nat) :
    ((st.upd i g).recs j).pid = (st.recs j).pid := by
  simp only [St.upd]
  split
  · rename_i h; rw [h]; exact hg _
  · rfl

theorem upd_col (st : St) (i : Nat) (g : Rec → Rec) (hg : ∀ r, (g r).col = r.col) (j : Nat) :
    ((st.upd i g).recs j).col = (st.recs j).col := by
  simp only [St.upd]
  split
  · rename_i h; rw [h]; exact hg _
  · rfl

theorem begin_text {ph : Phases} {st : St} (h : Inv ph st) {c : Cfg} (hs : c.sep = false) (i n : Nat)
    (g : Rec → Rec) (hg : ∀ r, (g r).col = r.col ∧ (g r).staged = r.staged ∧ (g r).out = r.out)
    (hpid : ∀ r, (g r).pid = r.pid) :
    let st' := (((((st.setCur i).upd i g).leader c i).put i (.call n) 1).upd i fun r => { r with insys := true })
    st'.files 0 = st.files 0 ++ (closing (fun j => (st.recs j).col) st.prt ++
      [⟨i, .lead (st.recs i).pid⟩, ⟨i, .call n⟩]) ∧ ∀ j, (st'.recs j).pid = (st.recs j).pid := by
  intro st'
  have hcol : (fun j => (((st.setCur i).upd i g).recs j).col) = fun j => (st.recs j).col := by
    funext j
    exact upd_col _ _ _ (fun r => (hg r).1) j
  have hf : Flat ((st.setCur i).upd i g) := by
    intro j
    have := h.flat j
    simp only [St.upd]
    split
    · rename_i hj; subst hj; rw [(hg _).2.1, (hg _).2.2]; exact this
    · exact this
  have h1 : OneOpen (fun j => (((st.setCur i).upd i g).recs j).col) ((st.setCur i).upd i g).prt := by
    rw [hcol]; exact h.one
  have hE := ((E.refl ((st.setCur i).upd i g)).leader hf h1 hs i).put hf i (.call n) 1
  constructor
  · have := hE.files
    rw [hcol] at this
    have e : (((st.setCur i).upd i g).recs i).pid = (st.recs i).pid := upd_pid _ _ _ hpid i
    rw [e] at this
    show (((((st.setCur i).upd i g).leader c i).put i (.call n) 1)).files 0 = _
    rw [this]
    simp [St.upd, St.setCur]
  · intro j
    show (((((((st.setCur i).upd i g).leader c i).put i (.call n) 1).upd i fun r => { r with insys := true })).recs j).pid = _
    rw [upd_pid]
    · rw [hE.recs j]
      exact upd_pid _ _ _ hpid j
    · intro r; rfl

theorem note_text {ph : Phases} {st : St} (h : Inv ph st) {c : Cfg} (hs : c.sep = false) (i k : Nat) :
    let st' := (((st.leader c i).put i (.note k) 1).put i .nl 1).lineEnded
    st'.files 0 = st.files 0 ++ (closing (fun j => (st.recs j).col) st.prt ++
      [⟨i, .lead (st.recs i).pid⟩, ⟨i, .note k⟩, ⟨i, .nl⟩]) ∧ ∀ j, (st'.recs j).pid = (st.recs j).pid := by
  intro st'
  have hE : E st st' _ _ _ _ :=
    ((((E.refl st).leader h.flat h.one hs i).put h.flat i (.note k) 1).put h.flat i .nl 1).lineEnded (by
      intro j h1 h2; simp [h1])
  constructor
  · have := hE.files
    simpa using this
  · intro j
    rw [hE.recs j]

theorem complete_text {ph : Phases} {st : St} (h : Inv ph st) {c : Cfg} (hs : c.sep = false) (i n : Nat)
    (hn : (st.recs i).n = n) (hsh : Shown n (st.recs i) (decide (st.prt = some i)) (txt st i)) (ks : List Kind)
    (hk : Tail ks) (hks : ∀ k ∈ ks, k.content = true ∧ ∀ q, k ≠ .lead q)
    (pre : St) (hpre : pre = st.setCur i ∨ pre = (st.setCur i).cutOther c i) (p : Nat → Nat)
    (hp : (st.recs i).pid = p i) :
    let st' := ((pre.resume c i).puts i (ks ++ [.nl])).lineEnded
    (∃ x, st'.files 0 = st.files 0 ++ x ∧ content x = ks.map (Tok.mk i) ∧ Leads p x) ∧
      ∀ j, (st'.recs j).pid = (st.recs j).pid := by
  intro st'
  obtain ⟨_, _, _, _, _, _, h7, h8, h9⟩ := complete_spec h hs i n hn hsh ks hk pre hpre
  have hc : content ((ks ++ [Kind.nl]).map (Tok.mk i)) = ks.map (Tok.mk i) := by
    rw [List.map_append, content_append]
    have : content (ks.map (Tok.mk i)) = ks.map (Tok.mk i) := by
      unfold content
      rw [List.filter_eq_self]
      intro t ht
      obtain ⟨k, hk, rfl⟩ := List.mem_map.mp ht
      exact (hks k hk).1
    rw [this]
    simp [content, Kind.content]
  have hl : Leads p ((ks ++ [Kind.nl]).map (Tok.mk i)) := by
    intro t ht q hq
    obtain ⟨k, hk, rfl⟩ := List.mem_map.mp ht
    rcases List.mem_append.mp hk with hk | hk
    · exact absurd hq ((hks k hk).2 q)
    · simp only [List.mem_singleton] at hk
      rw [hk] at hq
      simp at hq
  constructor
  · rcases h9 with ⟨_, _, h9⟩ | ⟨_, h9⟩
    · exact ⟨_, h9, hc, hl⟩
    · refine ⟨_, h9, ?_, ?_⟩
      · rw [content_append, content_append, content_closing, hc]
        rfl
      · refine (Leads.closing _ _ _).append (Leads.append ?_ hl)
        exact Leads.cons (by intro q hq; simp at hq; rw [← hq]; exact hp) (Leads.cons (by simp) (Leads.nil p))
  · intro j
    by_cases hj : j = i
    · rw [hj]; show (st'.recs i).pid = _; rw [h7]
    · show (st'.recs j).pid = _; rw [h8 j hj]

theorem exit_text {ph ph' : Phases} {st : St} (h : Inv ph st) {c : Cfg} (hs : c.sep = false) (hg : c.staging = false)
    (i : Nat) (res : Option Status) (hst : ph.step (.exit i res) = some ph') (p : Nat → Nat)
    (hp : ∀ i, (ph i).alive = true → (st.recs i).pid = p i) :
    Adds c ph ph' p (.exit i res) st (st.exit c i res) := by
  simp only [Phases.step] at hst
  cases hph : ph i with
  | inCall n shown =>
    rw [hph] at hst
    injection hst with hst
    subst hst
    have hal : (ph i).alive = true := by rw [hph]; rfl
    have hr := h.recs i
    rw [hph] at hr
    simp only [RecInv] at hr
    unfold Adds
    simp only [Says, hph, pidsStep]
    cases shown with
    | false =>
      simp only [Bool.false_eq_true, if_false] at hr
      unfold St.exit
      rw [if_pos hr.2.2]
      exact ⟨⟨[], by simp [St.upd, St.setCur], rfl, Leads.nil p⟩,
        pids_same hp (fun j => by rw [upd_pid _ _ _ (fun r => by rfl)]; rfl) hal⟩
    | true =>
      simp only [if_true] at hr
      obtain ⟨h1, h2, h3, h4⟩ := hr
      unfold St.exit
      rw [if_neg (by simp [h1])]
      cases res with
      | none =>
        simp only [hg, Bool.false_eq_true, if_false]
        obtain ⟨⟨x, hx1, hx2, hx3⟩, hx4⟩ := complete_text h hs i n h3 h4 [.ret] tail_ok.2.1 (by simp [Kind.content]) _ (Or.inl rfl) p (hp i hal)
        exact ⟨⟨x, hx1, by rw [hx2]; rfl, hx3⟩, pids_same hp (fun j => by rw [upd_pid _ _ _ (fun r => by rfl)]; exact hx4 j) hal⟩
      | some s =>
        simp only [hg, Bool.false_eq_true, if_false]
        obtain ⟨⟨x, hx1, hx2, hx3⟩, hx4⟩ := complete_text h hs i n h3 h4 [.rest, .ret] tail_ok.1 (by simp [Kind.content]) _ (Or.inl rfl) p (hp i hal)
        exact ⟨⟨x, hx1, by rw [hx2]; rfl, hx3⟩, pids_same hp (fun j => by rw [upd_pid _ _ _ (fun r => by rfl)]; exact hx4 j) hal⟩
  | unborn => rw [hph] at hst; simp at hst
  | idle => rw [hph] at hst; simp at hst
  | failed n => rw [hph] at hst; simp at hst
  | dying b => rw [hph] at hst; simp at hst
  | gone => rw [hph] at hst; simp at hst

theorem eventExit_text {ph ph' : Phases} {st : St} (h : Inv ph st) {c : Cfg} (hs : c.sep = false)
    (hg : c.staging = false) (i : Nat) (hst : ph.step (.eventExit i) = some ph') (p : Nat → Nat)
    (hp : ∀ i, (ph i).alive = true → (st.recs i).pid = p i) :
    Adds c ph ph' p (.eventExit i) st (st.eventExit c i) := by
  have hr := h.recs i
  have key : (ph i).alive = true → ∀ x n, (st.recs i).n = n → Shown n (st.recs i) (decide (st.prt = some i)) (txt st i) →
      (st.recs i).insys = true → (st.recs i).filtered = false →
      ((∃ x, (st.eventExit c i).files 0 = st.files 0 ++ x ∧ content x = [⟨i, .never⟩] ∧ Leads p x) ∧
        ∀ j, (ph.set i x j).alive = true → ((st.eventExit c i).recs j).pid = p j) := by
    intro hal x n hn hsh hin hfi
    unfold St.eventExit
    rw [if_neg (by simp [hin, hfi])]
    simp only [hg, Bool.false_eq_true, if_false]
    obtain ⟨⟨y, hx1, hx2, hx3⟩, hx4⟩ := complete_text h hs i n hn hsh [.never] tail_ok.2.2 (by simp [Kind.content]) _ (Or.inr rfl) p (hp i hal)
    exact ⟨⟨y, hx1, hx2, hx3⟩, pids_same hp (fun j => hx4 j) hal⟩
  have stay : (ph i).alive = true → ∀ x, ((st.recs i).insys = false ∨ (st.recs i).filtered = true) →
      ((∃ x, (st.eventExit c i).files 0 = st.files 0 ++ x ∧ content x = [] ∧ Leads p x) ∧
        ∀ j, (ph.set i x j).alive = true → ((st.eventExit c i).recs j).pid = p j) := by
    intro hal x hc
    unfold St.eventExit
    rw [if_pos hc]
    exact ⟨⟨[], by simp [St.setCur], rfl, Leads.nil p⟩, pids_same hp (fun j => rfl) hal⟩
  simp only [Phases.step] at hst
  unfold Adds
  simp only [Says, pidsStep]
  cases hph : ph i with
  | idle =>
    rw [hph] at hst hr
    injection hst with hst
    subst hst
    exact stay (by rw [hph]; rfl) _ (Or.inl hr.2.2)
  | inCall n shown =>
    rw [hph] at hst hr
    injection hst with hst
    subst hst
    simp only [RecInv] at hr
    cases shown with
    | false =>
      simp only [Bool.false_eq_true, if_false] at hr
      exact stay (by rw [hph]; rfl) _ (Or.inr hr.2.2)
    | true =>
      simp only [if_true] at hr
      obtain ⟨h1, h2, h3, h4⟩ := hr
      exact key (by rw [hph]; rfl) _ n h3 h4 h2 h1
  | failed n =>
    rw [hph] at hst hr
    injection hst with hst
    subst hst
    obtain ⟨h2, h3, h4⟩ := hr
    cases hfi : (st.recs i).filtered with
    | false =>
      obtain ⟨⟨x, a, b, d⟩, e⟩ := key (by rw [hph]; rfl) (.dying false) n h3 h4 h2 hfi
      exact ⟨⟨x, a, Or.inl b, d⟩, e⟩
    | true =>
      obtain ⟨⟨x, a, b, d⟩, e⟩ := stay (by rw [hph]; rfl) (.dying false) (Or.inr hfi)
      exact ⟨⟨x, a, Or.inr b, d⟩, e⟩
  | unborn => rw [hph] at hst; simp at hst
  | dying b => rw [hph] at hst; simp at hst
  | gone => rw [hph] at hst; simp at hst

theorem swap_text {ph : Phases} {st : St} (h : Inv ph st) (l t pid : Nat) :
    (∃ x, (((st.setCur l).pidChanged t pid).swap l t).files 0 = st.files 0 ++ x ∧ content x = [] ∧ ∀ p, Leads p x) ∧
      ∀ j, ((((st.setCur l).pidChanged t pid).swap l t).recs j).pid = (st.recs j).pid := by
  have hft := h.flat t
  constructor
  · show ∃ x, ((st.setCur l).pidChanged t pid).files 0 = st.files 0 ++ x ∧ _
    unfold St.pidChanged
    split
    · refine ⟨[⟨t, .pidChanged pid⟩, ⟨t, .nl⟩], ?_, by simp [content, Kind.content], ?_⟩
      · unfold St.write
        have : (st.setCur l).recs t = st.recs t := rfl
        rw [this, hft.1, hft.2]
        simp [St.app, St.setCur]
      · intro p
        exact Leads.cons (by simp) (Leads.cons (by simp) (Leads.nil p))
    · exact ⟨[], by simp [St.setCur], rfl, fun p => Leads.nil p⟩
  · intro j
    unfold St.swap
    rw [upd_pid _ _ _ (fun r => by rfl), upd_pid _ _ _ (fun r => by rfl)]
    unfold St.pidChanged
    split
    · unfold St.write
      have : (st.setCur l).recs t = st.recs t := rfl
      rw [this, hft.1, hft.2]
      rfl
    · rfl

theorem switch_text {ph ph' : Phases} {st : St} (h : Inv ph st) {c : Cfg} (hs : c.sep = false) (hg : c.staging = false)
    (l t k : Nat) (hst : ph.step (.switch l t k) = some ph') (p : Nat → Nat)
    (hp : ∀ i, (ph i).alive = true → (st.recs i).pid = p i) :
    Adds c ph ph' p (.switch l t k) st (st.switch c l t k) := by
  simp only [Phases.step] at hst
  cases ht : ph t with
  | inCall n shown =>
    rw [ht] at hst
    dsimp only at hst
    split at hst
    · rename_i hl
      injection hst with hst
      subst hst
      have hlt : l ≠ t := by intro e; rw [e, ht] at hl; simp at hl
      have hpl : (st.recs l).pid = p l := hp l (by rw [hl]; rfl)
      unfold St.switch
      dsimp only
      obtain ⟨h1, t1⟩ := swap_inv h l t n (st.recs l).pid shown hl ht
      obtain ⟨⟨x, x1, x2, x3⟩, x4⟩ := swap_text h l t (st.recs l).pid
      generalize ((st.setCur l).pidChanged t (st.recs l).pid).swap l t = s1 at h1 t1 x1 x4
      have h2 : Inv ((ph.set t (.dying false)).set l .gone) (s1.drop c l) := by
        refine drop_inv h1 hs hg l ?_
        simp only [Phases.step]
        rw [if_pos]
        rw [set_ne hlt, hl]
        rfl
      have hcl : (s1.recs l).col = 0 := by
        have := h1.recs l
        rw [set_ne hlt, hl] at this
        rcases this with h | h
        · exact h.1
        · exact absurd h.1 (by simp)
      have y1 : (s1.drop c l).files 0 = s1.files 0 := by
        rw [drop_flat hg, drop_closed hs l hcl]; rfl
      have y2 : ∀ j, j ≠ l → ((s1.drop c l).recs j).pid = (s1.recs j).pid := by
        intro j hj
        rw [drop_flat hg, drop_closed hs l hcl]
        simp [St.upd, hj]
      generalize s1.drop c l = s2 at h2 y1 y2
      have hpt : ((ph.set t (.dying false)).set l .gone) t = .dying false := by
        rw [set_ne (Ne.symm hlt), set_eq]
      have h3 : Inv ((ph.set t (.dying false)).set l .gone) (s2.upd t fun r => { r with pid := (st.recs l).pid }) := by
        refine h2.tweak t _ (fun j _ => rfl) (fun r => ⟨rfl, rfl, rfl⟩) ?_
        have := h2.recs t
        rw [hpt] at this ⊢
        exact this
      have z1 : (s2.upd t fun r => { r with pid := (st.recs l).pid }).files 0 = s2.files 0 := rfl
      have z2 : ∀ j, j ≠ l → ((s2.upd t fun r => { r with pid := (st.recs l).pid }).recs j).pid =
          if j = t then p l else (st.recs j).pid := by
        intro j hj
        simp only [St.upd]
        by_cases hjt : j = t
        · simp [hjt, hpl]
        · simp only [if_neg hjt]
          rw [y2 j hj, x4 j]
      generalize s2.upd t (fun r => { r with pid := (st.recs l).pid }) = s3 at h3 z1 z2
      have hfin : ∀ s : St, (∀ j, (s.recs j).pid = (s3.recs j).pid) → ∀ j, (ph.set l .gone j).alive = true →
          (((s.upd t fun r => { r with reprint := true }).setCur t).recs j).pid = pidsStep p (.switch l t k) j := by
        intro s hs j hj
        have hjl : j ≠ l := by intro e; rw [e, set_eq] at hj; simp [Phase.alive] at hj
        rw [set_ne hjl] at hj
        show ((s.upd t fun r => { r with reprint := true }).recs j).pid = _
        rw [upd_pid _ _ _ (fun r => by rfl), hs j, z2 j hjl]
        simp only [pidsStep]
        split
        · rfl
        · exact hp j hj
      unfold Adds
      simp only [Says]
      unfold St.superseded
      simp only [hg, Bool.false_eq_true, if_false]
      cases hq : c.quiet with
      | true =>
        simp only [if_true]
        refine ⟨⟨x, ?_, x2, x3 _⟩, hfin s3 (fun j => rfl)⟩
        show s3.files 0 = _
        rw [z1, y1, x1]
      | false =>
        simp only [Bool.false_eq_true, if_false]
        obtain ⟨n1, n2⟩ := note_text h3 hs t k
        refine ⟨⟨x ++ (closing (fun j => (s3.recs j).col) s3.prt ++
            [⟨t, .lead (s3.recs t).pid⟩, ⟨t, .note k⟩, ⟨t, .nl⟩]), ?_, ?_, ?_⟩, hfin _ n2⟩
        · show (((s3.leader c t).put t (.note k) 1).put t .nl 1).lineEnded.files 0 = _
          rw [n1, z1, y1, x1, List.append_assoc]
        · rw [content_append, x2, content_append, content_closing]
          simp [content, Kind.content]
        · refine (x3 _).append ((Leads.closing _ _ _).append (Leads.cons ?_ (Leads.cons (by simp) (Leads.cons (by simp) (Leads.nil _)))))
          intro q hq
          injection hq with hq
          rw [← hq, z2 t (Ne.symm hlt)]
          simp [pidsStep]
    · simp at hst
  | idle => rw [ht] at hst; simp at hst
  | unborn => rw [ht] at hst; simp at hst
  | failed n => rw [ht] at hst; simp at hst
  | dying n => rw [ht] at hst; simp at hst
  | gone => rw [ht] at hst; simp at hst

theorem step_text {ph ph' : Phases} {st : St} (h : Inv ph st) {c : Cfg} (hs : c.sep = false) (hg : c.staging = false)
    (o : Op) (hst : ph.step o = some ph') (p : Nat → Nat)
    (hp : ∀ i, (ph i).alive = true → (st.recs i).pid = p i) : Adds c ph ph' p o st (st.step c o) := by
  cases o with
  | exit i res => exact exit_text h hs hg i res hst p hp
  | eventExit i => exact eventExit_text h hs hg i hst p hp
  | switch l t k => exact switch_text h hs hg l t k hst p hp
  | start i pid out =>
    simp only [Phases.step] at hst
    split at hst
    · injection hst with hst
      subst hst
      refine ⟨⟨[], by simp [St.step, St.start, St.upd], rfl, Leads.nil _⟩, ?_⟩
      intro j hj
      simp only [St.step, St.start, St.upd, pidsStep]
      by_cases hji : j = i
      · simp [hji]
      · rw [set_ne hji] at hj
        simp only [if_neg hji]
        exact hp j hj
    · simp at hst
  | enter i n f =>
    simp only [Phases.step] at hst
    split at hst
    · rename_i hc
      injection hst with hst
      subst hst
      have hal : (ph i).alive = true := by rw [hc]; rfl
      simp only [St.step]
      cases f with
      | true =>
        simp only [St.enter, if_true]
        exact ⟨⟨[], by simp [St.upd, St.setCur], rfl, Leads.nil _⟩,
          pids_same hp (fun j => by rw [upd_pid _ _ _ (fun r => by rfl)]; rfl) hal⟩
      | false =>
        simp only [St.enter, hg, Bool.false_eq_true, if_false]
        obtain ⟨b1, b2⟩ := begin_text h hs i n (fun r => { r with n := n, filtered := false })
          (fun r => ⟨rfl, rfl, rfl⟩) (fun r => rfl)
        refine ⟨⟨_, b1, ?_, ?_⟩, pids_same hp b2 hal⟩
        · simp only [Says]
          rw [content_append, content_closing]
          simp [content, Kind.content]
        · refine (Leads.closing _ _ _).append (Leads.cons ?_ (Leads.cons (by simp) (Leads.nil _)))
          intro q hq
          injection hq with hq
          rw [← hq]; exact hp i hal
    · simp at hst
  | enterErr i n =>
    simp only [Phases.step] at hst
    split at hst
    · rename_i hc
      injection hst with hst
      subst hst
      have hal : (ph i).alive = true := by rw [hc]; rfl
      simp only [St.step, St.enterErr]
      obtain ⟨b1, b2⟩ := begin_text h hs i n (fun r => { r with n := n })
          (fun r => ⟨rfl, rfl, rfl⟩) (fun r => rfl)
      refine ⟨⟨_, b1, ?_, ?_⟩, pids_same hp b2 hal⟩
      · simp only [Says]
        rw [content_append, content_closing]
        simp [content, Kind.content]
      · refine (Leads.closing _ _ _).append (Leads.cons ?_ (Leads.cons (by simp) (Leads.nil _)))
        intro q hq
        injection hq with hq
        rw [← hq]; exact hp i hal
    · simp at hst
  | note i k =>
    simp only [Phases.step] at hst
    split at hst
    · rename_i hal
      injection hst with hst
      subst hst
      simp only [St.step, St.note]
      obtain ⟨b1, b2⟩ := note_text (h.setCur i) hs i k
      refine ⟨⟨_, b1, ?_, ?_⟩, fun j hj => by rw [b2 j]; exact hp j hj⟩
      · simp only [Says]
        rw [content_append, content_closing]
        simp [content, Kind.content]
      · refine (Leads.closing _ _ _).append (Leads.cons ?_ (Leads.cons (by simp) (Leads.cons (by simp) (Leads.nil _))))
        intro q hq
        injection hq with hq
        rw [← hq]; exact hp i hal
    · simp at hst
  | drop i =>
    simp only [Phases.step] at hst
    split at hst
    · rename_i hal
      injection hst with hst
      subst hst
      simp only [St.step]
      rw [drop_flat hg]
      have hpids : ∀ s : St, (∀ j, (s.recs j).pid = (st.recs j).pid) → ∀ (x y : Option Nat) j, (ph.set i .gone j).alive = true →
          (({ s.upd i (fun _ => ⟨0, 0, 0, none, false, false, false, 0⟩) with cur := x, prt := y } : St).recs j).pid = p j := by
        intro s hs x y j hj
        have hji : j ≠ i := by intro e; rw [e, set_eq] at hj; simp [Phase.alive] at hj
        rw [set_ne hji] at hj
        simp only [St.upd, if_neg hji]
        rw [hs j]
        exact hp j hj
      by_cases hc : (st.recs i).col = 0
      · rw [drop_closed hs i hc]
        exact ⟨⟨[], by simp [St.upd], rfl, Leads.nil _⟩, hpids st (fun j => rfl) _ _⟩
      · rw [drop_open hs h.flat i (h.one i hc) hc]
        exact ⟨⟨[⟨i, .detached⟩, ⟨i, .nl⟩], by simp [St.upd, St.app], by simp [Says, content, Kind.content],
          Leads.cons (by simp) (Leads.cons (by simp) (Leads.nil _))⟩, hpids (st.app 0 [⟨i, .detached⟩, ⟨i, .nl⟩]) (fun j => rfl) none none⟩
    · simp at hst

theorem run_text {ph ph' : Phases} {st : St} (h : Inv ph st) {c : Cfg} (hs : c.sep = false) (hg : c.staging = false)
    (ops : List Op) (hst : ph.run ops = some ph') (p : Nat → Nat)
    (hp : ∀ i, (ph i).alive = true → (st.recs i).pid = p i) :
    (∃ x, (st.run c ops).files 0 = st.files 0 ++ x ∧ SaysAll c.quiet ph ops (content x)) ∧
      ∀ i, (ph' i).alive = true → ((st.run c ops).recs i).pid = pidsRun p ops i := by
  induction ops generalizing ph st p with
  | nil =>
    injection hst with hst
    subst hst
    exact ⟨⟨[], by simp [St.run], rfl⟩, hp⟩
  | cons o ops ih =>
    simp only [Phases.run] at hst
    cases ho : ph.step o with
    | none => rw [ho] at hst; simp at hst
    | some q =>
      rw [ho] at hst
      obtain ⟨⟨x, x1, x2, _⟩, x4⟩ := step_text h hs hg o ho p hp
      obtain ⟨⟨y, y1, y2⟩, y3⟩ := ih (step_inv h hs hg o ho) hst _ x4
      refine ⟨⟨x ++ y, ?_, q, content x, content y, ho, x2, y2, content_append x y⟩, y3⟩
      show ((st.step c o).run c ops).files 0 = _
      rw [y1, x1, List.append_assoc]

end Strace.Out
