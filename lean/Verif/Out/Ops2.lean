import Verif.Out.Ops
namespace Strace.Out

theorem set_ne {ph : Phases} {i j : Nat} {x : Phase} (h : j ≠ i) : ph.set i x j = ph j := by
  simp [Phases.set, h]

theorem set_eq {ph : Phases} {i : Nat} {x : Phase} : ph.set i x i = x := by simp [Phases.set]

/-- a new tracee -/
theorem start_inv {ph ph' : Phases} {st : St} (h : Inv ph st) (i pid out : Nat)
    (hst : ph.step (.start i pid out) = some ph') : Inv ph' (st.start i pid out) := by
  simp only [Phases.step] at hst
  split at hst
  · rename_i hc
    obtain ⟨hc, ho⟩ := hc
    injection hst with hst
    subst hst ho
    have hr := h.recs i
    rw [hc] at hr
    have hcol : ∀ j, ((st.start i pid 0).recs j).col = (st.recs j).col := by
      intro j
      simp only [St.start, St.upd]
      split
      · rename_i hj; subst hj; exact hr.1.symm
      · rfl
    refine ⟨?_, ?_, ?_, ?_⟩
    · intro j
      have := h.flat j
      simp only [St.start, St.upd]
      split
      · exact ⟨rfl, rfl⟩
      · exact this
    · intro j hj
      dsimp only at hj
      rw [hcol j] at hj
      exact h.one j hj
    · rcases h.log with ⟨j, h1, h2⟩ | ⟨h1, h2⟩
      · exact Or.inl ⟨j, by rw [hcol]; exact h1, h2⟩
      · exact Or.inr ⟨fun j => by rw [hcol]; exact h1 j, h2⟩
    · intro j
      by_cases hj : j = i
      · subst hj
        simp only [St.start, St.upd, if_true]
        rw [set_eq]
        exact ⟨rfl, hr.2, rfl⟩
      · simp only [St.start, St.upd, if_neg hj]
        rw [set_ne hj]
        exact h.recs j
  · simp at hst

theorem enter_inv {ph ph' : Phases} {st : St} (h : Inv ph st) {c : Cfg} (hs : c.sep = false)
    (hg : c.staging = false) (i n : Nat) (f : Bool) (hst : ph.step (.enter i n f) = some ph') :
    Inv ph' (st.enter c i n f) := by
  simp only [Phases.step] at hst
  split at hst
  · rename_i hc
    injection hst with hst
    subst hst
    have hr := h.recs i
    rw [hc] at hr
    cases f with
    | true =>
      simp only [St.enter, if_true]
      refine (h.setCur i).tweak i _ (fun j hj => set_ne hj) (fun r => ⟨rfl, rfl, rfl⟩) ?_
      rw [set_eq]
      exact ⟨hr.1, hr.2.1, rfl⟩
    | false =>
      simp only [St.enter, hg, Bool.false_eq_true, if_false]
      have h1 : Inv ph ((st.setCur i).upd i fun r => { r with n := n, filtered := false }) := by
        refine (h.setCur i).tweak i _ (fun j hj => rfl) (fun r => ⟨rfl, rfl, rfl⟩) ?_
        rw [hc]
        exact ⟨hr.1, hr.2.1, hr.2.2⟩
      refine begin_spec h1 hs i n hc (fun j hj => set_ne hj) ?_ (Or.inl ⟨set_eq, ?_⟩)
      · simp [St.upd]
      · simp [St.upd]
  · simp at hst

theorem enterErr_inv {ph ph' : Phases} {st : St} (h : Inv ph st) {c : Cfg} (hs : c.sep = false)
    (i n : Nat) (hst : ph.step (.enterErr i n) = some ph') :
    Inv ph' (st.enterErr c i n) := by
  simp only [Phases.step] at hst
  split at hst
  · rename_i hc
    injection hst with hst
    subst hst
    have hr := h.recs i
    rw [hc] at hr
    unfold St.enterErr
    have h1 : Inv ph ((st.setCur i).upd i fun r => { r with n := n }) := by
      refine (h.setCur i).tweak i _ (fun j hj => rfl) (fun r => ⟨rfl, rfl, rfl⟩) ?_
      rw [hc]
      exact ⟨hr.1, hr.2.1, hr.2.2⟩
    refine begin_spec h1 hs i n hc (fun j hj => set_ne hj) ?_ (Or.inr set_eq)
    simp [St.upd]
  · simp at hst

theorem note_inv {ph ph' : Phases} {st : St} (h : Inv ph st) {c : Cfg} (hs : c.sep = false)
    (i k : Nat) (hst : ph.step (.note i k) = some ph') :
    Inv ph' (st.note c i k) := by
  simp only [Phases.step] at hst
  split at hst
  · rename_i hc
    injection hst with hst
    subst hst
    exact (note_spec (h.setCur i) hs i k hc).1
  · simp at hst

theorem open_inC {ph : Phase} {r : Rec} {prt : Bool} {a : Option A} (h : RecInv ph r prt a) (hc : r.col ≠ 0) :
    ∃ n, a = some (.inC n) := by
  cases ph with
  | unborn => exact absurd h.1 hc
  | idle => exact absurd h.1 hc
  | gone => exact absurd h.1 hc
  | inCall n shown =>
    simp only [RecInv] at h
    cases shown with
    | false => exact absurd h.1 hc
    | true =>
      simp only [if_true] at h
      rcases h.2.2.2 with h | h
      · exact ⟨n, h.2⟩
      · exact absurd h.1 hc
  | failed n =>
    rcases h.2.2 with h | h
    · exact ⟨n, h.2⟩
    · exact absurd h.1 hc
  | dying clean =>
    simp only [RecInv] at h
    rcases h with h | ⟨_, n, h | h⟩
    · exact absurd h.1 hc
    · exact ⟨n, h.2⟩
    · exact absurd h.1 hc

/-- the open line, if any, is that of the record with a column -/
theorem LogInv.open {st : St} (h : LogInv st) (ho : OneOpen (fun j => (st.recs j).col) st.prt) {i : Nat}
    (hi : (st.recs i).col ≠ 0) : IsLog (st.files 0) (some i) := by
  rcases h with ⟨j, h1, h2⟩ | ⟨h1, h2⟩
  · have e1 := ho j h1
    have e2 := ho i hi
    rw [e1] at e2
    injection e2 with e2
    subst e2
    exact h2
  · exact absurd (h1 i) hi

/-- the open line of `i` is ended by other means -/
theorem end_spec {ph ph' : Phases} {st st' : St} (h : Inv ph st) (i : Nat) (k : Kind) (hi : (st.recs i).col ≠ 0)
    (hk : Inner i ⟨i, k⟩) (hf : st'.files 0 = st.files 0 ++ [⟨i, k⟩, ⟨i, .nl⟩]) (hflat : Flat st')
    (hr : ∀ j, j ≠ i → st'.recs j = st.recs j) (hc : (st'.recs i).col = 0) (hp : ∀ j, j ≠ i → st'.prt ≠ some j)
    (hph : ∀ j, j ≠ i → ph' j = ph j)
    (hri : RecInv (ph' i) (st'.recs i) (decide (st'.prt = some i)) (txt st' i)) :
    Inv ph' st' := by
  have hz : ∀ j, j ≠ i → (st.recs j).col = 0 := by
    intro j hj
    by_cases hcj : (st.recs j).col = 0
    · exact hcj
    · have e1 := h.one j hcj
      have e2 := h.one i hi
      rw [e1] at e2
      injection e2 with e2
      exact absurd e2 hj
  refine Inv.ofClosed hflat ?_ ?_ ?_
  · intro j
    by_cases hj : j = i
    · rw [hj]; exact hc
    · rw [hr j hj]; exact hz j hj
  · rw [hf]
    exact (h.log.open h.one hi).close k hk
  · intro j
    by_cases hj : j = i
    · rw [hj]; exact hri
    · have h1 : txt st' j = txt st j := by
        unfold txt
        rw [hf, about_append, about_other (Ne.symm hj), about_other (Ne.symm hj), about_nil, List.append_nil]
      have h2 : st.prt ≠ some j := by
        rw [h.one i hi]
        intro e
        injection e with e
        exact hj e.symm
      have h3 := h.recs j
      rw [hr j hj, h1, hph j hj]
      simpa [h2, hp j hj] using h3

/-- what `droptcb` does with the record -/
theorem drop_flat {st : St} {c : Cfg} (hg : c.staging = false) (i : Nat) :
    st.drop c i = { (st.dropText c i true).upd i (fun _ => ⟨0, 0, 0, none, false, false, false, 0⟩) with
      cur := if (st.dropText c i true).cur = some i then none else (st.dropText c i true).cur
      prt := if (st.dropText c i true).prt = some i then none else (st.dropText c i true).prt } := by
  unfold St.drop
  simp only [hg, Bool.false_eq_true, if_false]

theorem drop_open {st : St} {c : Cfg} (hs : c.sep = false) (hf : Flat st) (i : Nat) (hp : st.prt = some i)
    (hc : (st.recs i).col ≠ 0) : st.dropText c i true = st.app 0 [⟨i, .detached⟩, ⟨i, .nl⟩] := by
  unfold St.dropText
  rw [if_pos (by simp [hs, hp, hc])]
  unfold St.write
  rw [(hf i).1, (hf i).2]

theorem drop_closed {st : St} {c : Cfg} (hs : c.sep = false) (i : Nat)
    (hc : (st.recs i).col = 0) : st.dropText c i true = st := by
  unfold St.dropText
  rw [if_neg (by simp [hs, hc])]

theorem drop_inv {ph ph' : Phases} {st : St} (h : Inv ph st) {c : Cfg} (hs : c.sep = false) (hg : c.staging = false)
    (i : Nat) (hst : ph.step (.drop i) = some ph') :
    Inv ph' (st.drop c i) := by
  simp only [Phases.step] at hst
  split at hst
  · rename_i ha
    injection hst with hst
    subst hst
    rw [drop_flat hg]
    by_cases hc : (st.recs i).col = 0
    · rw [drop_closed hs i hc]
      obtain ⟨a, hta⟩ := (h.recs i).some
      have hcol : ∀ j, ((st.upd i (fun _ => ⟨0, 0, 0, none, false, false, false, 0⟩)).recs j).col = (st.recs j).col := by
        intro j
        simp only [St.upd]
        split
        · rename_i hj; subst hj; exact hc.symm
        · rfl
      refine ⟨?_, ?_, ?_, ?_⟩
      · intro j
        have := h.flat j
        simp only [St.upd]
        split
        · exact ⟨rfl, rfl⟩
        · exact this
      · intro j hj
        dsimp only at hj ⊢
        rw [hcol j] at hj
        have := h.one j hj
        have hji : j ≠ i := by intro e; rw [e] at hj; exact hj hc
        show (if st.prt = some i then none else st.prt) = some j
        rw [this, if_neg (by simp [hji])]
      · rcases h.log with ⟨j, h1, h2⟩ | ⟨h1, h2⟩
        · exact Or.inl ⟨j, by dsimp only; rw [hcol]; exact h1, h2⟩
        · exact Or.inr ⟨fun j => by dsimp only; rw [hcol]; exact h1 j, h2⟩
      · intro j
        by_cases hj : j = i
        · subst hj
          simp only [St.upd, if_true]
          rw [set_eq]
          exact ⟨rfl, a, hta⟩
        · simp only [St.upd, if_neg hj]
          rw [set_ne hj]
          have := h.recs j
          by_cases hp : st.prt = some i
          · rw [if_pos hp]
            have hne : decide (st.prt = some j) = false := by rw [hp]; simp [Ne.symm hj]
            rw [hne] at this
            exact this
          · rw [if_neg hp]
            exact this
    · have hp := h.one i hc
      rw [drop_open hs h.flat i hp hc]
      obtain ⟨n, hta⟩ := open_inC (h.recs i) hc
      refine end_spec h i .detached hc ⟨rfl, by simp, by simp⟩ ?_ ?_ ?_ ?_ ?_ (fun j hj => set_ne hj) ?_
      · simp [St.upd, St.app]
      · intro j
        have := h.flat j
        simp only [St.upd, St.app]
        split
        · exact ⟨rfl, rfl⟩
        · exact this
      · intro j hj
        simp [St.upd, St.app, hj]
      · simp [St.upd]
      · intro j hj
        simp [St.app, hp]
      · rw [set_eq]
        refine ⟨by simp [St.upd], .idle, ?_⟩
        unfold txt at hta ⊢
        simp only [St.upd, St.app, if_true]
        rw [about_append, A.run_append, hta]
        simp [about, A.run, A.step]
  · simp at hst

/-- the thread's record, as far as it matters for what follows an exec -/
structure Th (r : Rec) (b : A) (st : St) (t : Nat) : Prop where
  filtered : (st.recs t).filtered = r.filtered
  insys : (st.recs t).insys = r.insys
  n : (st.recs t).n = r.n
  col : (st.recs t).col = 0
  txt : txt st t = some b

/-- the exchange of the records -/
theorem swap_inv {ph : Phases} {st : St} (h : Inv ph st) (l t n pid : Nat) (shown : Bool)
    (hl : ph l = .dying true) (ht : ph t = .inCall n shown) :
    Inv (ph.set t (.dying false)) (((st.setCur l).pidChanged t pid).swap l t) ∧
      Th (st.recs t) (if shown = true then .cut n else .idle) (((st.setCur l).pidChanged t pid).swap l t) t := by
  have hlt : l ≠ t := by intro e; rw [e, ht] at hl; simp at hl
  have hrl := h.recs l
  rw [hl] at hrl
  have hcl : (st.recs l).col = 0 := by
    rcases hrl with h | h
    · exact h.1
    · exact absurd h.1 (by simp)
  have hrt := h.recs t
  have hfl := h.flat l
  have hft := h.flat t
  by_cases hc : (st.recs t).col = 0
  · have e : ((st.setCur l).pidChanged t pid).swap l t = st.setCur l := by
      unfold St.pidChanged
      rw [if_neg (by simp [St.setCur, hc])]
      unfold St.swap St.upd St.setCur
      dsimp only
      congr 1
      funext j
      by_cases hj : j = l
      · subst hj
        simp only [if_true, if_neg hlt]
        rw [← hcl, hft.1, hft.2, ← hfl.1, ← hfl.2]
      · by_cases hj' : j = t
        · subst hj'
          simp only [if_neg hj, if_true]
          rw [hcl, ← hc, hfl.1, hfl.2, ← hft.1, ← hft.2]
        · simp only [if_neg hj, if_neg hj']
    rw [e]
    have htx : txt st t = some (if shown = true then .cut n else .idle) := by
      rw [ht] at hrt
      simp only [RecInv] at hrt
      cases shown with
      | false => exact hrt.2.1
      | true =>
        simp only [if_true] at hrt ⊢
        rcases hrt.2.2.2 with h | h
        · exact absurd hc h.1
        · exact h.2.1
    refine ⟨?_, ⟨rfl, rfl, rfl, hc, htx⟩⟩
    have := (h.setCur l).tweak t (fun r => r) (ph' := ph.set t (.dying false)) (fun j hj => set_ne hj)
      (fun r => ⟨rfl, rfl, rfl⟩) (by
        rw [set_eq]
        rw [show txt (st.setCur l) t = txt st t from rfl, htx]
        cases shown with
        | false => exact Or.inl ⟨hc, rfl⟩
        | true => exact Or.inr ⟨rfl, n, Or.inr ⟨hc, rfl⟩⟩)
    rw [upd_id] at this
    exact this
  · have hsh : shown = true ∧ txt st t = some (.inC n) := by
      rw [ht] at hrt
      simp only [RecInv] at hrt
      cases shown with
      | false => exact absurd hrt.1 hc
      | true =>
        simp only [if_true] at hrt
        rcases hrt.2.2.2 with h | h
        · exact ⟨rfl, h.2⟩
        · exact absurd h.1 hc
    obtain ⟨hsh, htx⟩ := hsh
    subst hsh
    have e : (st.setCur l).pidChanged t pid = (st.setCur l).app 0 [⟨t, .pidChanged pid⟩, ⟨t, .nl⟩] := by
      unfold St.pidChanged
      rw [if_pos (by simpa [St.setCur] using hc)]
      unfold St.write
      have : (st.setCur l).recs t = st.recs t := rfl
      rw [this, hft.1, hft.2]
    rw [e]
    have hfiles : (((st.setCur l).app 0 [⟨t, .pidChanged pid⟩, ⟨t, .nl⟩]).swap l t).files 0 =
        st.files 0 ++ [⟨t, .pidChanged pid⟩, ⟨t, .nl⟩] := by
      simp [St.swap, St.upd, St.app, St.setCur]
    have htx' : txt (((st.setCur l).app 0 [⟨t, .pidChanged pid⟩, ⟨t, .nl⟩]).swap l t) t = some (.cut n) := by
      unfold txt at htx ⊢
      rw [hfiles, about_append, A.run_append, htx]
      simp [about, A.run, A.step]
    have hct : ((((st.setCur l).app 0 [⟨t, .pidChanged pid⟩, ⟨t, .nl⟩]).swap l t).recs t).col = 0 := by
      simp [St.swap, St.upd, St.app, St.setCur, Ne.symm hlt, hcl]
    refine ⟨?_, ?_⟩
    · refine end_spec h t (.pidChanged pid) hc ⟨rfl, by simp, by simp⟩ hfiles ?_ ?_ hct ?_ (fun j hj => set_ne hj) ?_
      · intro j
        have := h.flat j
        simp only [St.swap, St.upd, St.app, St.setCur]
        by_cases hj : j = l
        · simp only [if_pos hj]
          exact hft
        · by_cases hj' : j = t
          · simp only [if_neg hj, if_pos hj']
            exact hfl
          · simp only [if_neg hj, if_neg hj']
            exact this
      · intro j hj
        by_cases hj' : j = l
        · subst hj'
          simp only [St.swap, St.upd, St.app, St.setCur, if_true, if_neg hj]
          have e3 : ∀ r : Rec, r.out = 0 → r.col = 0 → r.staged = none →
              { r with out := 0, staged := none, col := 0 } = r := by
            intro r h1 h2 h3; cases r; simp_all
          rw [hft.1, hft.2]
          exact e3 _ hfl.2 hcl hfl.1
        · simp [St.swap, St.upd, St.app, St.setCur, hj, hj']
      · intro j hj
        have : (((st.setCur l).app 0 [⟨t, .pidChanged pid⟩, ⟨t, .nl⟩]).swap l t).prt = st.prt := rfl
        rw [this, h.one t hc]
        simp [Ne.symm hj]
      · rw [set_eq, htx']
        exact Or.inr ⟨rfl, n, Or.inr ⟨hct, rfl⟩⟩
    · refine ⟨?_, ?_, ?_, hct, by simpa using htx'⟩ <;> simp [St.swap, St.upd, St.app, St.setCur, Ne.symm hlt]

theorem switch_inv {ph ph' : Phases} {st : St} (h : Inv ph st) {c : Cfg} (hs : c.sep = false) (hg : c.staging = false)
    (l t k : Nat) (hst : ph.step (.switch l t k) = some ph') :
    Inv ph' (st.switch c l t k) := by
  simp only [Phases.step] at hst
  cases ht : ph t with
  | inCall n shown =>
    rw [ht] at hst
    dsimp only at hst
    split at hst
    · rename_i hl
      injection hst with hst
      subst hst
      have hlt : l ≠ t := by intro e; rw [e, ht] at hl; simp at hl
      have hrt := h.recs t
      rw [ht] at hrt
      simp only [RecInv] at hrt
      unfold St.switch
      dsimp only
      obtain ⟨h1, t1⟩ := swap_inv h l t n (st.recs l).pid shown hl ht
      generalize ((st.setCur l).pidChanged t (st.recs l).pid).swap l t = s1 at h1 t1
      have h2 : Inv ((ph.set t (.dying false)).set l .gone) (s1.drop c l) := by
        refine drop_inv h1 hs hg l ?_
        simp only [Phases.step]
        rw [if_pos]
        rw [set_ne hlt, hl]
        rfl
      have hcl : (s1.recs l).col = 0 := by
        have := h1.recs l
        rw [set_ne hlt, hl] at this
        rcases this with h | h
        · exact h.1
        · exact absurd h.1 (by simp)
      have t2 : Th (st.recs t) (if shown = true then .cut n else .idle) (s1.drop c l) t := by
        rw [drop_flat hg, drop_closed hs l hcl]
        have e : ∀ (x y : Option Nat), ({ s1.upd l (fun _ => ⟨0, 0, 0, none, false, false, false, 0⟩) with
            cur := x, prt := y } : St).recs t = s1.recs t := by
          intro x y; simp [St.upd, Ne.symm hlt]
        exact ⟨by rw [e]; exact t1.filtered, by rw [e]; exact t1.insys, by rw [e]; exact t1.n, by rw [e]; exact t1.col, t1.txt⟩
      generalize s1.drop c l = s2 at h2 t2
      have hpt : ((ph.set t (.dying false)).set l .gone) t = .dying false := by
        rw [set_ne (Ne.symm hlt), set_eq]
      have h3 : Inv ((ph.set t (.dying false)).set l .gone) (s2.upd t fun r => { r with pid := (st.recs l).pid }) := by
        refine h2.tweak t _ (fun j _ => rfl) (fun r => ⟨rfl, rfl, rfl⟩) ?_
        have := h2.recs t
        rw [hpt] at this ⊢
        exact this
      have t3 : Th (st.recs t) (if shown = true then .cut n else .idle) (s2.upd t fun r => { r with pid := (st.recs l).pid }) t := by
        refine ⟨?_, ?_, ?_, ?_, t2.txt⟩ <;> simp [St.upd, t2.filtered, t2.insys, t2.n, t2.col]
      generalize s2.upd t (fun r => { r with pid := (st.recs l).pid }) = s3 at h3 t3
      refine Inv.setCur ?_ t
      unfold St.superseded
      simp only [hg, Bool.false_eq_true, if_false]
      have fin : ∀ s : St, Inv ((ph.set t (.dying false)).set l .gone) s →
          Th (st.recs t) (if shown = true then .cut n else .idle) s t →
          Inv (ph.set l .gone) (s.upd t fun r => { r with reprint := true }) := by
        intro s hs hth
        refine hs.tweak t _ ?_ (fun r => ⟨rfl, rfl, rfl⟩) ?_
        · intro j hj
          by_cases hj' : j = l
          · rw [hj', set_eq, set_eq]
          · rw [set_ne hj', set_ne hj', set_ne hj]
        · rw [set_ne (Ne.symm hlt), ht, hth.txt]
          simp only [RecInv]
          cases shown with
          | false =>
            simp only [Bool.false_eq_true, if_false] at hrt ⊢
            exact ⟨hth.col, trivial, by rw [hth.filtered]; exact hrt.2.2⟩
          | true =>
            simp only [if_true] at hrt ⊢
            exact ⟨by rw [hth.filtered]; exact hrt.1, by rw [hth.insys]; exact hrt.2.1, by rw [hth.n]; exact hrt.2.2.1,
              Or.inr ⟨hth.col, rfl, Or.inl rfl⟩⟩
      cases hq : c.quiet with
      | true =>
        simp only [if_true]
        exact fin s3 h3 t3
      | false =>
        simp only [Bool.false_eq_true, if_false]
        obtain ⟨n1, n2, n3, n4, n5⟩ := note_spec h3 hs t k (by rw [hpt]; rfl)
        refine fin _ n1 ?_
        refine ⟨by rw [n3]; exact t3.filtered, by rw [n3]; exact t3.insys, by rw [n3]; exact t3.n, n4 t, ?_⟩
        refine n5 _ _ t3.txt ?_
        simp [t3.col, A.run]
    · simp at hst
  | idle => rw [ht] at hst; simp at hst
  | unborn => rw [ht] at hst; simp at hst
  | failed n => rw [ht] at hst; simp at hst
  | dying n => rw [ht] at hst; simp at hst
  | gone => rw [ht] at hst; simp at hst

theorem step_inv {ph ph' : Phases} {st : St} (h : Inv ph st) {c : Cfg} (hs : c.sep = false) (hg : c.staging = false)
    (o : Op) (hst : ph.step o = some ph') : Inv ph' (st.step c o) := by
  cases o with
  | start i pid out => exact start_inv h i pid out hst
  | enter i n f => exact enter_inv h hs hg i n f hst
  | enterErr i n => exact enterErr_inv h hs i n hst
  | exit i res => exact exit_inv h hs hg i res hst
  | note i k => exact note_inv h hs i k hst
  | eventExit i => exact eventExit_inv h hs hg i hst
  | drop i => exact drop_inv h hs hg i hst
  | switch l t k => exact switch_inv h hs hg l t k hst

theorem run_inv {ph ph' : Phases} {st : St} (h : Inv ph st) {c : Cfg} (hs : c.sep = false) (hg : c.staging = false)
    (ops : List Op) (hst : ph.run ops = some ph') : Inv ph' (st.run c ops) := by
  induction ops generalizing ph st with
  | nil =>
    injection hst with hst
    subst hst
    exact h
  | cons o ops ih =>
    simp only [Phases.run] at hst
    cases ho : ph.step o with
    | none => rw [ho] at hst; simp at hst
    | some p =>
      rw [ho] at hst
      exact ih (step_inv h hs hg o ho) hst

end Strace.Out
