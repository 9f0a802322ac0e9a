import Verif.Out.Props
/-!
# C51: status filters

With a status filter the text of a call is held back until its status is known.
-/
namespace Strace.Out

/-! ### What should be shown -/

/-- a line -/
def whole (i pid : Nat) (ks : List Kind) : List Tok := ⟨i, .lead pid⟩ :: (ks ++ [Kind.nl]).map (Tok.mk i)

/-- what an event adds to the log: a call when it ends, whole, if its status is selected; notes -/
def shownBy (c : Cfg) (ph : Phases) (p : Nat → Nat) : Op → List Tok
  | .exit i res =>
    match ph i with
    | .inCall n true =>
      match res with
      | some s => if c.set s = true then whole i (p i) [.call n, .rest, .ret] else []
      | none => if c.set .unavailable = true then whole i (p i) [.call n, .ret] else []
    | _ => []
  | .eventExit i =>
    match ph i with
    | .inCall n true => if c.set .unfinished = true then whole i (p i) [.call n, .never] else []
    | _ => []
  | .note i k => whole i (p i) [.note k]
  | _ => []

/-- what a history adds -/
def shownLog (c : Cfg) : Phases → (Nat → Nat) → List Op → List Tok
  | _, _, [] => []
  | ph, p, o :: os =>
    shownBy c ph p o ++
      match ph.step o with
      | none => []
      | some ph' => shownLog c ph' (pidsStep p o) os

/-- the events for which this is so: no failing ptrace, no exec by a thread, no note in the middle of a shown call, no
detach in the middle of a shown call if that is selected -/
def Calm (c : Cfg) (ph : Phases) : Op → Prop
  | .enterErr _ _ => False
  | .switch _ _ _ => False
  | .note i _ => ∀ n, ph i ≠ .inCall n true
  | .drop i => c.set .detached = false ∨ ∀ n, ph i ≠ .inCall n true
  | _ => True

def CalmAll (c : Cfg) : Phases → List Op → Prop
  | _, [] => True
  | ph, o :: os => Calm c ph o ∧ ∀ ph', ph.step o = some ph' → CalmAll c ph' os

/-! ### Proof -/

/-- a record and what is held back -/
def Held (ph : Phase) (pid i : Nat) (r : Rec) : Prop :=
  r.reprint = false ∧ (ph.alive = true → r.pid = pid) ∧ r.out = 0 ∧
  match ph with
  | .inCall n true => r.staged = some [⟨i, .lead pid⟩, ⟨i, .call n⟩] ∧ r.insys = true ∧ r.filtered = false
  | .inCall _ false => r.staged = none ∧ r.col = 0 ∧ r.filtered = true
  | .idle => r.staged = none ∧ r.col = 0 ∧ r.insys = false
  | .failed _ => False
  | _ => r.staged = none ∧ r.col = 0

def HeldAll (ph : Phases) (p : Nat → Nat) (st : St) : Prop := ∀ j, Held (ph j) (p j) j (st.recs j)

theorem Held.closed {ph : Phase} {pid i : Nat} {r : Rec} (h : Held ph pid i r) (hn : ∀ n, ph ≠ .inCall n true) :
    r.staged = none ∧ r.col = 0 := by
  obtain ⟨_, _, _, h⟩ := h
  cases ph with
  | inCall n b =>
    cases b with
    | true => exact absurd rfl (hn n)
    | false => exact ⟨h.1, h.2.1⟩
  | idle => exact ⟨h.1, h.2.1⟩
  | failed n => exact h.elim
  | unborn => exact h
  | dying b => exact h
  | gone => exact h

theorem HeldAll.noOpen {ph : Phases} {p : Nat → Nat} {st : St} (h : HeldAll ph p st) (j : Nat)
    (hj : (st.recs j).staged = none) : (st.recs j).col = 0 := by
  by_cases hn : ∃ n, ph j = .inCall n true
  · obtain ⟨n, hn⟩ := hn
    have := h j
    rw [hn] at this
    rw [this.2.2.2.1] at hj
    simp at hj
  · exact ((h j).closed (fun n e => hn ⟨n, e⟩)).2

/-- only record `i` changes, to `r`; `toks` are written -/
structure S (st st' : St) (i : Nat) (toks : List Tok) (r : Rec) (prt : Option Nat) : Prop where
  files : st'.files 0 = st.files 0 ++ toks
  recs : ∀ j, j ≠ i → st'.recs j = st.recs j
  own : st'.recs i = r
  cur : st'.cur = some i
  prt : st'.prt = prt

theorem S.refl (st : St) (i : Nat) : S st (st.setCur i) i [] (st.recs i) st.prt :=
  ⟨by simp [St.setCur], fun j _ => rfl, rfl, rfl, rfl⟩

theorem S.upd {st st' : St} {i : Nat} {toks : List Tok} {r : Rec} {prt : Option Nat} (h : S st st' i toks r prt)
    (g : Rec → Rec) : S st (st'.upd i g) i toks (g r) prt := by
  refine ⟨h.files, ?_, ?_, h.cur, h.prt⟩
  · intro j hj
    simp only [St.upd, if_neg hj]
    exact h.recs j hj
  · simp only [St.upd, if_true]
    rw [h.own]

/-- writing text that is held back -/
theorem S.put_held {st st' : St} {i : Nat} {toks : List Tok} {r : Rec} {prt : Option Nat} (h : S st st' i toks r prt)
    {buf : List Tok} (hs : r.staged = some buf) (w : Nat) (k : Kind) (d : Nat) :
    S st (st'.put w k d) i toks { r with staged := some (buf ++ [⟨w, k⟩]), col := r.col + d } prt := by
  unfold St.put
  rw [h.cur]
  dsimp only
  unfold St.write
  rw [h.own, hs]
  exact (h.upd (fun r => { r with staged := some (buf ++ [⟨w, k⟩]) })).upd (fun r => { r with col := r.col + d })

theorem S.app {st st' : St} {i : Nat} {toks : List Tok} {r : Rec} {prt : Option Nat} (h : S st st' i toks r prt)
    (l : List Tok) : S st (st'.app 0 l) i (toks ++ l) r prt := by
  refine ⟨?_, h.recs, h.own, h.cur, h.prt⟩
  simp only [St.app, if_true]
  rw [h.files, List.append_assoc]

/-- writing text that is not -/
theorem S.put_direct {st st' : St} {i : Nat} {toks : List Tok} {r : Rec} {prt : Option Nat} (h : S st st' i toks r prt)
    (hs : r.staged = none) (ho : r.out = 0) (w : Nat) (k : Kind) (d : Nat) :
    S st (st'.put w k d) i (toks ++ [⟨w, k⟩]) { r with col := r.col + d } prt := by
  unfold St.put
  rw [h.cur]
  dsimp only
  have e : st'.write i [⟨w, k⟩] = st'.app 0 [⟨w, k⟩] := by
    unfold St.write
    rw [h.own, hs]
    dsimp only
    rw [ho]
  rw [e]
  exact (h.app [⟨w, k⟩]).upd (fun r => { r with col := r.col + d })

/-- nothing is cut: the lines of others are complete or held back -/
theorem S.cut {st st' : St} {i : Nat} {toks : List Tok} {r : Rec} {prt : Option Nat} (h : S st st' i toks r prt)
    {c : Cfg} (hs : c.sep = false) (hn : ∀ j, (st.recs j).staged = none → (st.recs j).col = 0) (hi : r.col = 0) :
    st'.cut c i = st' := by
  unfold St.cut
  simp only [hs, Bool.false_eq_true, if_false]
  cases st'.prt with
  | none => rfl
  | some j =>
    dsimp only
    rw [if_neg]
    unfold St.mustClose
    by_cases hj : j = i
    · rw [hj, h.own]; simp [hi]
    · rw [h.recs j hj]
      cases hst : (st.recs j).staged with
      | none => simp [hn j hst]
      | some b => simp [hj]

theorem S.leader {st st' : St} {i : Nat} {toks : List Tok} {r : Rec} {prt : Option Nat} (h : S st st' i toks r prt)
    {c : Cfg} (hs : c.sep = false) (hn : ∀ j, (st.recs j).staged = none → (st.recs j).col = 0) (hi : r.col = 0) :
    ∃ s0, S st s0 i toks r (some i) ∧ st'.leader c i = s0.put i (.lead r.pid) c.lw := by
  unfold St.leader
  rw [h.cut hs hn hi, h.own]
  have h1 : S st { st' with prt := some i, cur := some i } i toks r (some i) := ⟨h.files, h.recs, h.own, rfl, rfl⟩
  have h2 := h1.upd (fun r => { r with col := 0 })
  refine ⟨_, ?_, rfl⟩
  have e : ({ r with col := 0 } : Rec) = r := by rw [← hi]
  rw [e] at h2
  exact h2

theorem S.lineEnded {st st' : St} {i : Nat} {toks : List Tok} {r : Rec} (h : S st st' i toks r (some i)) :
    S st st'.lineEnded i toks { r with col := 0 } none := by
  have h1 : S st st'.endCur i toks { r with col := 0 } (some i) := by
    unfold St.endCur
    rw [h.cur]
    exact h.upd (fun r => { r with col := 0 })
  have h2 := h1.upd (fun r => { r with col := 0 })
  unfold St.lineEnded St.endPrt
  rw [h1.prt]
  exact ⟨h2.files, h2.recs, h2.own, h2.cur, rfl⟩

/-- a call whose text is held back goes on where it stopped -/
theorem S.resume {st st' : St} {i : Nat} {toks : List Tok} {r : Rec} {prt : Option Nat} (h : S st st' i toks r prt)
    (c : Cfg) {buf : List Tok} (hs : r.staged = some buf) (hr : r.reprint = false) :
    S st (st'.resume c i) i toks r (some i) := by
  unfold St.resume
  rw [h.own, hs, hr, if_neg (by simp)]
  exact ⟨h.files, h.recs, h.own, h.cur, rfl⟩

theorem S.closeMem {st st' : St} {i : Nat} {toks : List Tok} {r : Rec} {prt : Option Nat} (h : S st st' i toks r prt)
    {buf : List Tok} (hs : r.staged = some buf) (ho : r.out = 0) (b : Bool) :
    S st (st'.closeMem i b) i (toks ++ if b = true then buf else []) { r with staged := none } prt := by
  unfold St.closeMem
  rw [h.own, hs]
  dsimp only
  cases b with
  | true =>
    simp only [if_true]
    have := (h.upd (fun r => { r with staged := none })).app buf
    rw [← ho] at this
    exact this
  | false =>
    simp only [Bool.false_eq_true, if_false, List.append_nil]
    exact h.upd (fun r => { r with staged := none })

/-- a step: what it adds, and what is held back afterwards -/
def Good (c : Cfg) (ph ph' : Phases) (p : Nat → Nat) (o : Op) (st st' : St) : Prop :=
  st'.files 0 = st.files 0 ++ shownBy c ph p o ∧ HeldAll ph' (pidsStep p o) st'

theorem S.held {ph : Phases} {p : Nat → Nat} {st st' : St} {i : Nat} {toks : List Tok} {r : Rec} {prt : Option Nat}
    (h : S st st' i toks r prt) (ha : HeldAll ph p st) (x : Phase) (hi : Held x (p i) i r) :
    HeldAll (ph.set i x) p st' := by
  intro j
  by_cases hj : j = i
  · rw [hj, set_eq, h.own]; exact hi
  · rw [set_ne hj, h.recs j hj]; exact ha j

theorem exit_good {ph ph' : Phases} {p : Nat → Nat} {st : St} {c : Cfg} (hg : c.staging = true)
    (h : HeldAll ph p st) (i : Nat) (res : Option Status) (hst : ph.step (.exit i res) = some ph') :
    Good c ph ph' p (.exit i res) st (st.exit c i res) := by
  simp only [Phases.step] at hst
  cases hph : ph i with
  | inCall n shown =>
    rw [hph] at hst
    injection hst with hst
    subst hst
    have hi := h i
    rw [hph] at hi
    obtain ⟨h1, h2, h3, h4⟩ := hi
    have hp := h2 rfl
    unfold Good
    simp only [shownBy, hph, pidsStep]
    cases shown with
    | false =>
      have hf : (st.recs i).filtered = true := h4.2.2
      unfold St.exit
      rw [if_pos hf]
      have := (S.refl st i).upd (fun r => { r with insys := false })
      refine ⟨by simpa using this.files, this.held h .idle ?_⟩
      exact ⟨h1, fun _ => hp, h3, h4.1, h4.2.1, rfl⟩
    | true =>
      obtain ⟨h5, h6, h7⟩ := h4
      unfold St.exit
      rw [if_neg (by simp [h7])]
      have hr := (S.refl st i).resume c h5 h1
      have key : ∀ (s : St) (toks : List Tok) (r : Rec), S st s i toks r (some i) → r.staged = none → r.reprint = false →
          r.pid = p i → r.out = 0 →
          HeldAll (ph.set i .idle) p (s.lineEnded.upd i fun r => { r with insys := false }) ∧
          (s.lineEnded.upd i fun r => { r with insys := false }).files 0 = st.files 0 ++ toks := by
        intro s toks r hS e1 e2 e3 e4
        have := hS.lineEnded.upd (fun r => { r with insys := false })
        exact ⟨this.held h .idle ⟨e2, fun _ => e3, e4, e1, rfl, rfl⟩, this.files⟩
      cases res with
      | none =>
        simp only [hg, if_true]
        have h8 := ((hr.put_held h5 i .ret 1).put_held rfl i .nl 1).closeMem rfl h3 (c.set .unavailable)
        obtain ⟨k1, k2⟩ := key _ _ _ h8 rfl h1 hp h3
        refine ⟨?_, k1⟩
        rw [k2]
        simp [whole]
      | some s =>
        simp only [hg, if_true]
        have h8 := (hr.put_held h5 i .rest 1).closeMem rfl h3 (c.set s)
        cases hsel : c.set s with
        | true =>
          rw [hsel] at h8
          simp only [if_true]
          have h9 := (h8.put_direct rfl h3 i .ret 1).put_direct rfl h3 i .nl 1
          obtain ⟨k1, k2⟩ := key _ _ _ h9 rfl h1 hp h3
          refine ⟨?_, k1⟩
          rw [k2]
          simp [whole]
        | false =>
          rw [hsel] at h8
          simp only [Bool.false_eq_true, if_false] at h8 ⊢
          obtain ⟨k1, k2⟩ := key _ _ _ h8 rfl h1 hp h3
          exact ⟨k2, k1⟩
  | unborn => rw [hph] at hst; simp at hst
  | idle => rw [hph] at hst; simp at hst
  | failed n => rw [hph] at hst; simp at hst
  | dying b => rw [hph] at hst; simp at hst
  | gone => rw [hph] at hst; simp at hst

theorem eventExit_good {ph ph' : Phases} {p : Nat → Nat} {st : St} {c : Cfg} (hg : c.staging = true)
    (hs : c.sep = false)
    (h : HeldAll ph p st) (i : Nat) (hst : ph.step (.eventExit i) = some ph') :
    Good c ph ph' p (.eventExit i) st (st.eventExit c i) := by
  have stay : ∀ x, ((st.recs i).insys = false ∨ (st.recs i).filtered = true) → Held x (p i) i (st.recs i) →
      (st.eventExit c i).files 0 = st.files 0 ++ [] ∧ HeldAll (ph.set i x) p (st.eventExit c i) := by
    intro x hc hx
    unfold St.eventExit
    rw [if_pos hc]
    have := S.refl st i
    exact ⟨this.files, this.held h x hx⟩
  have hi := h i
  simp only [Phases.step] at hst
  unfold Good
  simp only [shownBy, pidsStep]
  cases hph : ph i with
  | idle =>
    rw [hph] at hst hi
    injection hst with hst
    subst hst
    obtain ⟨h1, h2, h3, h4⟩ := hi
    exact stay (.dying true) (Or.inl h4.2.2) ⟨h1, fun _ => h2 rfl, h3, h4.1, h4.2.1⟩
  | inCall n shown =>
    rw [hph] at hst hi
    injection hst with hst
    subst hst
    obtain ⟨h1, h2, h3, h4⟩ := hi
    cases shown with
    | false => exact stay (.dying true) (Or.inr h4.2.2) ⟨h1, fun _ => h2 rfl, h3, h4.1, h4.2.1⟩
    | true =>
      obtain ⟨h5, h6, h7⟩ := h4
      unfold St.eventExit
      rw [if_neg (by simp [h6, h7])]
      simp only [hg, if_true]
      have hco : (st.setCur i).cutOther c i = st.setCur i := by
        unfold St.cutOther
        split
        · rfl
        · rename_i j hj
          rw [if_neg]
          rintro ⟨_, _, e1, e2⟩
          have e3 : (st.recs j).staged = none := by
            cases hst : (st.recs j).staged with
            | none => rfl
            | some b =>
              rw [show (st.setCur i).recs j = st.recs j from rfl, hst] at e2
              simp at e2
          exact e1 (h.noOpen j e3)
      rw [hco]
      have hr := (S.refl st i).resume c h5 h1
      have h8 := (((hr.put_held h5 i .never 1).put_held rfl i .nl 1).closeMem rfl h3 (c.set .unfinished)).lineEnded
      refine ⟨?_, h8.held h (.dying true) ⟨h1, fun _ => h2 rfl, h3, rfl, rfl⟩⟩
      rw [h8.files]
      simp [whole]
  | failed n => rw [hph] at hi; exact hi.2.2.2.elim
  | unborn => rw [hph] at hst; simp at hst
  | dying b => rw [hph] at hst; simp at hst
  | gone => rw [hph] at hst; simp at hst

theorem step_good {ph ph' : Phases} {p : Nat → Nat} {st : St} {c : Cfg} (hs : c.sep = false) (hg : c.staging = true)
    (h : HeldAll ph p st) (o : Op) (ho : Calm c ph o) (hst : ph.step o = some ph') :
    Good c ph ph' p o st (st.step c o) := by
  cases o with
  | exit i res => exact exit_good hg h i res hst
  | eventExit i => exact eventExit_good hg hs h i hst
  | enterErr i n => exact ho.elim
  | switch l t k => exact ho.elim
  | start i pid out =>
    simp only [Phases.step] at hst
    split at hst
    · rename_i hc
      obtain ⟨hc, hout⟩ := hc
      injection hst with hst
      subst hst hout
      refine ⟨by simp [St.step, St.start, St.upd, shownBy], ?_⟩
      intro j
      simp only [St.step, St.start, St.upd, pidsStep]
      by_cases hj : j = i
      · simp only [hj, if_true]
        rw [set_eq]
        exact ⟨rfl, fun _ => rfl, rfl, rfl, rfl, rfl⟩
      · simp only [if_neg hj]
        rw [set_ne hj]
        exact h j
    · simp at hst
  | enter i n f =>
    simp only [Phases.step] at hst
    split at hst
    · rename_i hc
      injection hst with hst
      subst hst
      have hi := h i
      rw [hc] at hi
      obtain ⟨h1, h2, h3, h4, h5, h6⟩ := hi
      unfold Good
      simp only [St.step, shownBy, pidsStep]
      cases f with
      | true =>
        simp only [St.enter, if_true]
        have := (S.refl st i).upd (fun r => { r with insys := true, filtered := true, n := n })
        exact ⟨this.files, this.held h (.inCall n false) ⟨h1, fun _ => h2 rfl, h3, h4, h5, rfl⟩⟩
      | false =>
        simp only [St.enter, hg, Bool.false_eq_true, if_false, if_true]
        have ha := ((S.refl st i).upd (fun r => { r with staged := some [] })).upd (fun r => { r with n := n, filtered := false })
        obtain ⟨s0, hb, e⟩ := ha.leader hs h.noOpen h5
        have hd := ((hb.put_held rfl i (.lead (st.recs i).pid) c.lw).put_held rfl i (.call n) 1).upd
          (fun r => { r with insys := true })
        have he : (st.setCur i).openMem i = (st.setCur i).upd i (fun r => { r with staged := some [] }) := rfl
        rw [he, e]
        refine ⟨hd.files, hd.held h (.inCall n true) ⟨h1, fun _ => h2 rfl, h3, ?_, rfl, rfl⟩⟩
        simp [h2 rfl]
    · simp at hst
  | note i k =>
    simp only [Phases.step] at hst
    split at hst
    · rename_i hal
      injection hst with hst
      subst hst
      have hcl := (h i).closed ho
      obtain ⟨h1, h2, h3, h4⟩ := h i
      unfold Good
      simp only [St.step, St.note, shownBy, pidsStep]
      obtain ⟨s0, hb, e⟩ := (S.refl st i).leader hs h.noOpen hcl.2
      have hd := (((hb.put_direct hcl.1 h3 i (.lead (st.recs i).pid) c.lw).put_direct hcl.1 h3 i (.note k) 1).put_direct
        hcl.1 h3 i .nl 1).lineEnded
      rw [e]
      refine ⟨?_, ?_⟩
      · rw [hd.files, h2 hal]
        simp [whole]
      · intro j
        by_cases hj : j = i
        · rw [hj, hd.own]
          have e2 : ({ st.recs i with col := 0 } : Rec) = st.recs i := by rw [← hcl.2]
          show Held (ph i) (p i) i ({ st.recs i with col := 0 } : Rec)
          rw [e2]
          exact ⟨h1, h2, h3, h4⟩
        · rw [hd.recs j hj]; exact h j
    · simp at hst
  | drop i =>
    simp only [Phases.step] at hst
    split at hst
    · rename_i hal
      injection hst with hst
      subst hst
      obtain ⟨h1, h2, h3, h4⟩ := h i
      have hz : ∀ s : St, s.files 0 = st.files 0 → (∀ j, j ≠ i → s.recs j = st.recs j) →
          Good c ph (ph.set i .gone) p (.drop i) st ({ s.upd i (fun _ => ⟨0, 0, 0, none, false, false, false, 0⟩) with
            cur := if s.cur = some i then none else s.cur
            prt := if s.prt = some i then none else s.prt } : St) := by
        intro s hf hr
        refine ⟨?_, ?_⟩
        · simp only [shownBy, List.append_nil]
          exact hf
        · intro j
          by_cases hj : j = i
          · rw [hj, set_eq]
            simp only [St.upd, if_true]
            exact ⟨rfl, fun e => absurd e (by simp [Phase.alive]), rfl, rfl, rfl⟩
          · rw [set_ne hj]
            simp only [St.upd, if_neg hj, pidsStep]
            rw [hr j hj]
            exact h j
      simp only [St.step, St.drop, hg, if_true]
      by_cases hn : ∃ n, ph i = .inCall n true
      · obtain ⟨n, hn⟩ := hn
        have hd : c.set .detached = false := by
          rcases ho with ho | ho
          · exact ho
          · exact absurd hn (ho n)
        rw [hn] at h4
        have e : ∀ s : St, s.dropText c i false = s := by
          intro s
          unfold St.dropText
          rw [if_neg (by simp)]
        rw [hd, e]
        refine hz _ ?_ ?_
        · unfold St.closeMem
          rw [h4.1]
          rfl
        · intro j hj
          unfold St.closeMem
          rw [h4.1]
          simp [St.upd, hj]
      · have hcl := (h i).closed (fun n e => hn ⟨n, e⟩)
        have e : st.closeMem i (c.set .detached) = st := by
          unfold St.closeMem
          rw [hcl.1]
        have e2 : ∀ b, st.dropText c i b = st := by
          intro b
          unfold St.dropText
          rw [if_neg (by simp [hs, hcl.2])]
        rw [e, e2]
        exact hz st rfl (fun j _ => rfl)
    · simp at hst

theorem run_good {ph ph' : Phases} {p : Nat → Nat} {st : St} {c : Cfg} (hs : c.sep = false) (hg : c.staging = true)
    (h : HeldAll ph p st) (ops : List Op) (ho : CalmAll c ph ops) (hst : ph.run ops = some ph') :
    (st.run c ops).files 0 = st.files 0 ++ shownLog c ph p ops := by
  induction ops generalizing ph st p with
  | nil => simp [St.run, shownLog]
  | cons o ops ih =>
    simp only [Phases.run] at hst
    cases h1 : ph.step o with
    | none => rw [h1] at hst; simp at hst
    | some q =>
      rw [h1] at hst
      obtain ⟨g1, g2⟩ := step_good hs hg h o ho.1 h1
      have := ih g2 (ho.2 q h1) hst
      simp only [shownLog, h1]
      show ((st.step c o).run c ops).files 0 = _
      rw [this, g1, List.append_assoc]

/-- C51: with a status filter the log consists of whole lines: the notes, and the calls whose status is selected,
in the order in which they end.  Nothing of other calls appears. -/
theorem status_filter_partial {c : Cfg} (hs : c.sep = false) (hg : c.staging = true) {ops : List Op} {ph : Phases}
    (h : Phases.init.run ops = some ph) (hc : CalmAll c Phases.init ops) :
    logOf c ops = shownLog c Phases.init (fun _ => 0) ops := by
  have := run_good (p := fun _ => 0) (st := St.init) hs hg (by
    intro j
    exact ⟨rfl, fun e => absurd e (by simp [Phases.init, Phase.alive]), rfl, rfl, rfl⟩) ops hc h
  unfold logOf
  rw [this]
  rfl

/-! ### Examples -/

/-- status=failed -/
def onlyFailed : Cfg := ⟨false, true, fun s => s = .failed, false, 1⟩

/-- two tracees whose calls overlap -/
def mixed : List Op :=
  [.start 0 100 0, .start 1 101 0, .enter 0 7 false, .enter 1 8 false, .exit 0 (some .successful), .note 0 9,
   .exit 1 (some .failed), .enter 0 3 false, .drop 1, .eventExit 0, .note 0 4, .drop 0]

theorem mixed_valid : (Phases.init.run mixed).isSome = true := by decide +kernel

theorem mixed_calm : CalmAll onlyFailed Phases.init mixed := by
  repeat' first
    | refine ⟨?_, ?_⟩
    | (intro ph' h; simp [Phases.step, Phases.init, Phases.set, Phase.alive] at h; subst h)
    | exact True.intro
    | (intro n; simp [Phases.set])
    | exact Or.inl rfl

theorem mixed_log : logOf onlyFailed mixed =
    [⟨0, .lead 100⟩, ⟨0, .note 9⟩, ⟨0, .nl⟩,
     ⟨1, .lead 101⟩, ⟨1, .call 8⟩, ⟨1, .rest⟩, ⟨1, .ret⟩, ⟨1, .nl⟩,
     ⟨0, .lead 100⟩, ⟨0, .note 4⟩, ⟨0, .nl⟩] := by decide +kernel

/-! ### Where it fails -/

/-- status=!successful -/
def notSuccessful : Cfg := ⟨false, true, fun s => s ≠ .successful, false, 1⟩

/-- C24, C51 (finding): two tracees are detached in the middle of calls: the text of the first is published without
an end, and that of the second on the same line -/
theorem detach_glues :
    let ops : List Op := [.start 0 100 0, .start 1 101 0, .enter 0 7 false, .enter 1 8 false, .drop 0, .drop 1]
    (Phases.init.run ops).isSome = true ∧
    logOf notSuccessful ops =
      [⟨0, .lead 100⟩, ⟨0, .call 7⟩, ⟨1, .lead 101⟩, ⟨1, .call 8⟩, ⟨1, .detached⟩, ⟨1, .nl⟩] := by decide +kernel

/-- C25, C51 (finding): a note in the middle of a call (the personality changes on exec) cuts the call, and the rest
of it has neither leader nor name; with -ff too -/
theorem note_tears :
    let ops : List Op := [.start 0 100 0, .enter 0 59 false, .note 0 9, .exit 0 (some .failed)]
    (Phases.init.run ops).isSome = true ∧
    logOf onlyFailed ops =
      [⟨0, .lead 100⟩, ⟨0, .call 59⟩, ⟨0, .unfin⟩, ⟨0, .nl⟩, ⟨0, .lead 100⟩, ⟨0, .note 9⟩, ⟨0, .nl⟩,
       ⟨0, .rest⟩, ⟨0, .ret⟩, ⟨0, .nl⟩] ∧
    logOf { plain with sep := true } ops = logOf onlyFailed ops := by decide +kernel

/-- C51 (finding): a tracee is killed in the middle of a call and no exit event is seen: the note that it was killed
is lost with the call -/
theorem killed_lost :
    let ops : List Op := [.start 0 100 0, .enter 0 7 false, .note 0 9, .drop 0]
    (Phases.init.run ops).isSome = true ∧ logOf onlyFailed ops = [] := by decide +kernel

/-- C51 (finding): exec by a thread: the first half of the call is lost, the second half is shown -/
theorem exec_halved :
    let ops : List Op := [.start 0 100 0, .start 1 101 0, .eventExit 0, .enter 1 59 false, .switch 0 1 2,
      .exit 1 (some .failed)]
    (Phases.init.run ops).isSome = true ∧
    logOf onlyFailed ops =
      [⟨1, .lead 100⟩, ⟨1, .note 2⟩, ⟨1, .nl⟩, ⟨1, .lead 100⟩, ⟨1, .resumed 59⟩, ⟨1, .rest⟩, ⟨1, .ret⟩, ⟨1, .nl⟩] := by
  decide +kernel

/-- C24, C51 (finding): a failed ptrace at the entry of a call is not held back, and the text of another tracee is
published on its line -/
theorem failed_ptrace_glues :
    let ops : List Op := [.start 0 100 0, .start 1 101 0, .enter 0 7 false, .enterErr 1 8, .exit 0 (some .failed)]
    (Phases.init.run ops).isSome = true ∧
    logOf onlyFailed ops =
      [⟨1, .lead 101⟩, ⟨1, .call 8⟩, ⟨0, .lead 100⟩, ⟨0, .call 7⟩, ⟨0, .rest⟩, ⟨0, .ret⟩, ⟨0, .nl⟩] := by decide +kernel

end Strace.Out
