import Verif.Out.Steps
namespace Strace.Out

theorem Inv.setCur {ph : Phases} {st : St} (h : Inv ph st) (i : Nat) : Inv ph (st.setCur i) :=
  ⟨h.flat, h.one, h.log, h.recs⟩

/-- a change of a record that leaves its column and file alone -/
theorem Inv.tweak {ph ph' : Phases} {st : St} (h : Inv ph st) (i : Nat) (g : Rec → Rec)
    (hph : ∀ j, j ≠ i → ph' j = ph j) (hg : ∀ r, (g r).col = r.col ∧ (g r).staged = r.staged ∧ (g r).out = r.out)
    (hi : RecInv (ph' i) (g (st.recs i)) (decide (st.prt = some i)) (txt st i)) : Inv ph' (st.upd i g) := by
  have hcol : ∀ j, ((st.upd i g).recs j).col = (st.recs j).col := by
    intro j
    simp only [St.upd]
    split
    · rename_i hj; subst hj; exact (hg _).1
    · rfl
  refine ⟨?_, ?_, ?_, ?_⟩
  · intro j
    have := h.flat j
    simp only [St.upd]
    split
    · rename_i hj; subst hj; rw [(hg _).2.1, (hg _).2.2]; exact this
    · exact this
  · intro j hj
    dsimp only at hj
    rw [hcol j] at hj
    exact h.one j hj
  · rcases h.log with ⟨j, h1, h2⟩ | ⟨h1, h2⟩
    · exact Or.inl ⟨j, by rw [hcol]; exact h1, h2⟩
    · exact Or.inr ⟨fun j => by rw [hcol]; exact h1 j, h2⟩
  · intro j
    by_cases hj : j = i
    · subst hj
      simp only [St.upd, if_true]
      exact hi
    · simp only [St.upd, if_neg hj]
      rw [hph j hj]
      exact h.recs j

/-- nothing open: the rest follows -/
theorem Inv.ofClosed {ph : Phases} {st : St} (hf : Flat st) (hz : ∀ j, (st.recs j).col = 0)
    (hl : IsLog (st.files 0) none) (hr : ∀ j, RecInv (ph j) (st.recs j) (decide (st.prt = some j)) (txt st j)) :
    Inv ph st :=
  ⟨hf, fun j hj => absurd (hz j) hj, Or.inr ⟨hz, hl⟩, hr⟩

/-- the beginning of a call: leader and name -/
theorem begin_spec {ph ph' : Phases} {st : St} (h : Inv ph st) {c : Cfg} (hs : c.sep = false) (i n : Nat)
    (hph : ph i = .idle) (hph' : ∀ j, j ≠ i → ph' j = ph j) (hn : (st.recs i).n = n)
    (hp : (ph' i = .inCall n true ∧ (st.recs i).filtered = false) ∨ ph' i = .failed n) :
    Inv ph' (((st.leader c i).put i (.call n) 1).upd i fun r => { r with insys := true }) := by
  have hE := ((E.refl st).leader h.flat h.one hs i).put h.flat i (.call n) 1
  have hidle := h.recs i
  rw [hph] at hidle
  obtain ⟨hc0, ht0, _⟩ := hidle
  generalize hst' : (st.leader c i).put i (.call n) 1 = st' at hE
  have hfiles : st'.files 0 = st.files 0 ++ (closing (fun j => (st.recs j).col) st.prt ++
      [⟨i, .lead (st.recs i).pid⟩, ⟨i, .call n⟩]) := by
    have := hE.files
    simpa using this
  have hcol : ∀ j, (st'.recs j).col = if j = i then c.lw + 1 else 0 := by
    intro j
    rw [hE.recs j]
    dsimp only
    split <;> rfl
  have htxt : txt st' i = some (.inC n) := by
    rw [txt_self h.one hfiles ht0 (a' := .idle) (by rw [if_neg (by simp [hc0])]; rfl)]
    simp [about, A.run, A.step]
  have hrec := hE.recs i
  refine ⟨?_, ?_, ?_, ?_⟩
  · intro j
    have := hE.flat h.flat j
    simp only [St.upd]
    split
    · rename_i hj; subst hj; exact this
    · exact this
  · intro j hj
    have : ((st'.upd i fun r => { r with insys := true }).recs j).col = (st'.recs j).col := by
      simp only [St.upd]
      split
      · rename_i hj; subst hj; rfl
      · rfl
    dsimp only at hj
    rw [this, hcol j] at hj
    by_cases hji : j = i
    · rw [hji]; exact hE.prt
    · rw [if_neg hji] at hj; exact absurd rfl hj
  · left
    refine ⟨i, ?_, ?_⟩
    · simp only [St.upd, if_true]
      rw [hcol i]; simp
    · simp only [St.upd]
      rw [hfiles]
      have := ((closing_log h.log h.one).lead i (st.recs i).pid).more (.call n) ⟨rfl, by simp, by simp⟩
      simpa using this
  · intro j
    by_cases hj : j = i
    · subst hj
      have hsh : Shown n ({ st'.recs j with insys := true }) true (txt st' j) :=
        Or.inl ⟨by dsimp only; rw [hcol j]; simp, htxt⟩
      simp only [St.upd, if_true]
      rw [show txt { recs := fun k => if k = j then { st'.recs j with insys := true } else st'.recs k, files := st'.files, cur := st'.cur, prt := st'.prt } j = txt st' j from rfl, hE.prt]
      simp only [decide_true]
      rcases hp with ⟨hp, hfi⟩ | hp
      · rw [hp]
        simp only [RecInv, if_true]
        refine ⟨?_, trivial, ?_, hsh⟩
        · rw [hrec]; exact hfi
        · rw [hrec]; exact hn
      · rw [hp]
        refine ⟨rfl, ?_, hsh⟩
        show (st'.recs j).n = n
        rw [hrec]; exact hn
    · have := (h.recs j).others (st' := st') h.one hfiles (by
        intro t ht
        simp only [List.mem_cons, List.not_mem_nil, or_false] at ht
        rcases ht with ht | ht <;> rw [ht]) hj (by rw [hE.recs j]; simp [hj]) (by rw [hE.prt]; simp [Ne.symm hj])
      simp only [St.upd, if_neg hj]
      rw [hph' j hj]
      exact this

theorem alive_base {ph : Phase} {r : Rec} {prt : Bool} {a : A} (h : RecInv ph r prt (some a)) (hc : r.col = 0)
    (ha : ph.alive = true) : ∃ b, a = A.base b := by
  cases ph with
  | unborn => simp [Phase.alive] at ha
  | gone => simp [Phase.alive] at ha
  | idle =>
    have := h.2.1
    injection this with this
    exact ⟨none, this⟩
  | inCall n shown =>
    simp only [RecInv] at h
    cases shown with
    | false =>
      have := h.2.1
      injection this with this
      exact ⟨none, this⟩
    | true =>
      simp only [if_true] at h
      rcases h.2.2.2 with h | h
      · exact absurd hc h.1
      · have := h.2.1
        injection this with this
        exact ⟨some n, this⟩
  | failed n =>
    rcases h.2.2 with h | h
    · exact absurd hc h.1
    · have := h.2.1
      injection this with this
      exact ⟨some n, this⟩
  | dying clean =>
    simp only [RecInv] at h
    rcases h with h | ⟨_, n, h | h⟩
    · have := h.2
      injection this with this
      exact ⟨none, this⟩
    · exact absurd hc h.1
    · have := h.2
      injection this with this
      exact ⟨some n, this⟩

theorem note_run (b : Option Nat) (pid k : Nat) :
    (A.base b).run [.lead pid, .note k, .nl] = some (A.base b) := by
  cases b <;> simp [A.base, A.run, A.step]

/-- a note -/
theorem note_spec {ph : Phases} {st : St} (h : Inv ph st) {c : Cfg} (hs : c.sep = false) (i k : Nat)
    (ha : (ph i).alive = true) :
    let st' := (((st.leader c i).put i (.note k) 1).put i .nl 1).lineEnded
    Inv ph st' ∧ st'.prt = none ∧ (st'.recs i) = { st.recs i with col := 0 } ∧ (∀ j, (st'.recs j).col = 0) ∧
      ∀ a a', txt st i = some a → a.run (if (st.recs i).col ≠ 0 then [.unfin, .nl] else []) = some a' →
        txt st' i = some a' := by
  intro st'
  have hE : E st st' _ _ _ _ :=
    ((((E.refl st).leader h.flat h.one hs i).put h.flat i (.note k) 1).put h.flat i .nl 1).lineEnded (by
      intro j h1 h2; simp [h1])
  have hfiles : st'.files 0 = st.files 0 ++ (closing (fun j => (st.recs j).col) st.prt ++
      [⟨i, .lead (st.recs i).pid⟩, ⟨i, .note k⟩, ⟨i, .nl⟩]) := by
    have := hE.files
    simpa using this
  have habout : about i ([⟨i, .lead (st.recs i).pid⟩, ⟨i, .note k⟩, ⟨i, .nl⟩] : List Tok) =
      [.lead (st.recs i).pid, .note k, .nl] := by simp [about]
  obtain ⟨a, hta⟩ := (h.recs i).some
  have hri := h.recs i
  rw [hta] at hri
  obtain ⟨a', hr', hri'⟩ := run_closed hri
  obtain ⟨b, hb⟩ := alive_base hri' rfl ha
  have htxt : txt st' i = some a' := by
    rw [txt_self h.one hfiles hta hr', habout, hb, note_run]
  have hrec : st'.recs i = { st.recs i with col := 0 } := hE.recs i
  refine ⟨?_, hE.prt, hrec, fun j => by rw [hE.recs j], ?_⟩
  · refine Inv.ofClosed (hE.flat h.flat) (fun j => by rw [hE.recs j]) ?_ ?_
    · rw [hfiles]
      have := (((closing_log h.log h.one).lead i (st.recs i).pid).more (.note k) ⟨rfl, by simp, by simp⟩).nl
      simpa using this
    · intro j
      by_cases hj : j = i
      · subst hj
        rw [hrec, htxt, hE.prt]
        simpa using hri'
      · exact (h.recs j).others (st' := st') h.one hfiles (by
          intro t ht
          simp only [List.mem_cons, List.not_mem_nil, or_false] at ht
          rcases ht with ht | ht | ht <;> rw [ht]) hj (hE.recs j) (by rw [hE.prt]; simp)
  · intro x x' hx hx'
    rw [hta] at hx
    injection hx with hx
    subst hx
    rw [hr'] at hx'
    rw [htxt]
    exact hx'

theorem tail_ok : Tail [.rest, .ret] ∧ Tail [.ret] ∧ Tail [.never] := by
  refine ⟨⟨by simp, ?_⟩, ⟨by simp, ?_⟩, ⟨by simp, ?_⟩⟩ <;> intro n <;> simp [A.run, A.step]

/-- completing a call gives a closed log -/
theorem complete_inv {ph ph' : Phases} {st : St} (h : Inv ph st) {c : Cfg} (hs : c.sep = false) (i n : Nat)
    (hph' : ∀ j, j ≠ i → ph' j = ph j)
    (hn : (st.recs i).n = n) (hsh : Shown n (st.recs i) (decide (st.prt = some i)) (txt st i)) (ks : List Kind)
    (hk : Tail ks) (pre : St) (hpre : pre = st.setCur i ∨ pre = (st.setCur i).cutOther c i) (g : Rec → Rec)
    (hg : ∀ r, (g r).col = r.col ∧ (g r).staged = r.staged ∧ (g r).out = r.out)
    (hi : ∀ r, r.col = 0 → RecInv (ph' i) (g r) false (some .idle)) :
    Inv ph' ((((pre.resume c i).puts i (ks ++ [.nl])).lineEnded).upd i g) := by
  obtain ⟨h1, h2, h3, h4, h5, h6, h7, _, _⟩ := complete_spec h hs i n hn hsh ks hk pre hpre
  generalize ((pre.resume c i).puts i (ks ++ [.nl])).lineEnded = st' at *
  have hinv : Inv (fun j => if j = i then .gone else ph j) st' := by
    refine Inv.ofClosed h1 h2 h4 ?_
    intro j
    rw [h3]
    by_cases hj : j = i
    · subst hj
      simp only [if_true]
      exact ⟨h2 j, _, h5⟩
    · simp only [if_neg hj]
      simpa using h6 j hj
  refine hinv.tweak i g ?_ hg ?_
  · intro j hj
    rw [hph' j hj]
    simp [hj]
  · rw [h5, h3]
    simpa using hi _ (h2 i)

theorem upd_id (st : St) (i : Nat) : st.upd i (fun r => r) = st := by
  cases st with
  | mk recs files cur prt =>
    simp only [St.upd]
    congr 1
    funext j
    split
    · rename_i h; rw [h]
    · rfl

/-- the exit of a call -/
theorem exit_inv {ph ph' : Phases} {st : St} (h : Inv ph st) {c : Cfg} (hs : c.sep = false) (hg : c.staging = false)
    (i : Nat) (res : Option Status) (hst : ph.step (.exit i res) = some ph') : Inv ph' (st.exit c i res) := by
  simp only [Phases.step] at hst
  cases hp : ph i with
  | inCall n shown =>
    rw [hp] at hst
    injection hst with hst
    subst hst
    have hr := h.recs i
    rw [hp] at hr
    simp only [RecInv] at hr
    have hph' : ∀ j, j ≠ i → ph.set i .idle j = ph j := by intro j hj; simp [Phases.set, hj]
    have hphi : ph.set i .idle i = .idle := by simp [Phases.set]
    cases shown with
    | false =>
      simp only [Bool.false_eq_true, if_false] at hr
      unfold St.exit
      rw [if_pos hr.2.2]
      refine (h.setCur i).tweak i _ hph' (fun r => ⟨rfl, rfl, rfl⟩) ?_
      rw [hphi]
      exact ⟨hr.1, hr.2.1, rfl⟩
    | true =>
      simp only [if_true] at hr
      obtain ⟨h1, h2, h3, h4⟩ := hr
      have key : ∀ ks, Tail ks → Inv (ph.set i .idle)
          (((((st.setCur i).resume c i).puts i (ks ++ [.nl])).lineEnded).upd i fun r => { r with insys := false }) := by
        intro ks hk
        exact complete_inv h hs i n hph' h3 h4 ks hk _ (Or.inl rfl) _ (fun r => ⟨rfl, rfl, rfl⟩) (by
          intro r hr
          rw [hphi]
          exact ⟨hr, rfl, rfl⟩)
      unfold St.exit
      rw [if_neg (by simp [h1])]
      cases res with
      | none =>
        simp only [hg, Bool.false_eq_true, if_false]
        exact key [.ret] tail_ok.2.1
      | some s =>
        simp only [hg, Bool.false_eq_true, if_false]
        exact key [.rest, .ret] tail_ok.1
  | unborn => rw [hp] at hst; simp at hst
  | idle => rw [hp] at hst; simp at hst
  | failed n => rw [hp] at hst; simp at hst
  | dying b => rw [hp] at hst; simp at hst
  | gone => rw [hp] at hst; simp at hst

/-- the exit event -/
theorem eventExit_inv {ph ph' : Phases} {st : St} (h : Inv ph st) {c : Cfg} (hs : c.sep = false)
    (hg : c.staging = false) (i : Nat) (hst : ph.step (.eventExit i) = some ph') : Inv ph' (st.eventExit c i) := by
  have hr := h.recs i
  have hph' : ∀ x j, j ≠ i → ph.set i x j = ph j := by intro x j hj; simp [Phases.set, hj]
  have hphi : ∀ x, ph.set i x i = x := by intro x; simp [Phases.set]
  have key : ∀ x n, (st.recs i).n = n → Shown n (st.recs i) (decide (st.prt = some i)) (txt st i) →
      (st.recs i).insys = true → (st.recs i).filtered = false →
      (∀ r, r.col = 0 → RecInv x r false (some .idle)) → Inv (ph.set i x) (st.eventExit c i) := by
    intro x n hn hsh hin hfi hx
    unfold St.eventExit
    rw [if_neg (by simp [hin, hfi])]
    simp only [hg, Bool.false_eq_true, if_false]
    have := complete_inv h hs i n (hph' x) hn hsh [.never] tail_ok.2.2 _ (Or.inr rfl) (fun r => r)
      (fun r => ⟨rfl, rfl, rfl⟩) (by intro r hr; rw [hphi]; exact hx r hr)
    rw [upd_id] at this
    exact this
  have stay : ∀ x, RecInv x (st.recs i) (decide (st.prt = some i)) (txt st i) → 
      ((st.recs i).insys = false ∨ (st.recs i).filtered = true) → Inv (ph.set i x) (st.eventExit c i) := by
    intro x hx hc
    unfold St.eventExit
    rw [if_pos hc]
    have := (h.setCur i).tweak i (fun r => r) (hph' x) (fun r => ⟨rfl, rfl, rfl⟩) (by rw [hphi]; exact hx)
    rw [upd_id] at this
    exact this
  simp only [Phases.step] at hst
  cases hp : ph i with
  | idle =>
    rw [hp] at hst hr
    injection hst with hst
    subst hst
    exact stay _ (Or.inl ⟨hr.1, hr.2.1⟩) (Or.inl hr.2.2)
  | inCall n shown =>
    rw [hp] at hst hr
    injection hst with hst
    subst hst
    simp only [RecInv] at hr
    cases shown with
    | false =>
      simp only [Bool.false_eq_true, if_false] at hr
      exact stay _ (Or.inl ⟨hr.1, hr.2.1⟩) (Or.inr hr.2.2)
    | true =>
      simp only [if_true] at hr
      obtain ⟨h1, h2, h3, h4⟩ := hr
      exact key _ n h3 h4 h2 h1 (fun r hr => Or.inl ⟨hr, rfl⟩)
  | failed n =>
    rw [hp] at hst hr
    injection hst with hst
    subst hst
    obtain ⟨h2, h3, h4⟩ := hr
    cases hfi : (st.recs i).filtered with
    | false => exact key _ n h3 h4 h2 hfi (fun r hr => Or.inl ⟨hr, rfl⟩)
    | true =>
      refine stay _ (Or.inr ⟨rfl, n, ?_⟩) (Or.inr hfi)
      rcases h4 with h4 | h4
      · exact Or.inl h4
      · exact Or.inr ⟨h4.1, h4.2.1⟩
  | unborn => rw [hp] at hst; simp at hst
  | dying b => rw [hp] at hst; simp at hst
  | gone => rw [hp] at hst; simp at hst

end Strace.Out
