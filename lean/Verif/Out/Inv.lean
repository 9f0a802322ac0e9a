import Verif.Out.Lemmas
namespace Strace.Out

/-- a shown call: its line is open, or it was cut off and will be resumed -/
def Shown (n : Nat) (r : Rec) (prt : Bool) (a : Option A) : Prop :=
  (r.col ≠ 0 ∧ a = some (.inC n)) ∨ (r.col = 0 ∧ a = some (.cut n) ∧ (r.reprint = true ∨ prt = false))

/-- record and text agree with the phase -/
def RecInv (ph : Phase) (r : Rec) (prt : Bool) (a : Option A) : Prop :=
  match ph with
  | .unborn => r.col = 0 ∧ a = some .idle
  | .idle => r.col = 0 ∧ a = some .idle ∧ r.insys = false
  | .inCall n shown =>
    if shown = true then r.filtered = false ∧ r.insys = true ∧ r.n = n ∧ Shown n r prt a
    else r.col = 0 ∧ a = some .idle ∧ r.filtered = true
  | .failed n => r.insys = true ∧ r.n = n ∧ Shown n r prt a
  | .dying clean =>
    (r.col = 0 ∧ a = some .idle) ∨ (clean = false ∧ ∃ n, (r.col ≠ 0 ∧ a = some (.inC n)) ∨ (r.col = 0 ∧ a = some (.cut n)))
  | .gone => r.col = 0 ∧ ∃ a', a = some a'

/-- where the text about `i` stands -/
def txt (st : St) (i : Nat) : Option A := A.run .idle (about i (st.files 0))

/-- the log is a log, and the open line is that of the printing tracee -/
def LogInv (st : St) : Prop :=
  (∃ j, (st.recs j).col ≠ 0 ∧ IsLog (st.files 0) (some j)) ∨ ((∀ j, (st.recs j).col = 0) ∧ IsLog (st.files 0) none)

structure Inv (ph : Phases) (st : St) : Prop where
  flat : Flat st
  one : OneOpen (fun j => (st.recs j).col) st.prt
  log : LogInv st
  recs : ∀ j, RecInv (ph j) (st.recs j) (decide (st.prt = some j)) (txt st j)

theorem Inv.init : Inv Phases.init St.init := by
  refine ⟨fun j => ⟨rfl, rfl⟩, fun j h => absurd rfl h, Or.inr ⟨fun j => rfl, ⟨[], by simp, rfl⟩⟩, fun j => ⟨rfl, rfl⟩⟩

theorem closing_log {st : St} (h : LogInv st) (ho : OneOpen (fun j => (st.recs j).col) st.prt) :
    IsLog (st.files 0 ++ closing (fun j => (st.recs j).col) st.prt) none := by
  rcases h with ⟨j, hj, hl⟩ | ⟨hz, hl⟩
  · have hp : st.prt = some j := ho j hj
    rw [hp]
    simp only [closing, if_pos hj]
    exact hl.close .unfin ⟨rfl, by simp, by simp⟩
  · have : closing (fun j => (st.recs j).col) st.prt = [] := by
      cases st.prt with
      | none => rfl
      | some p => simp [closing, hz p]
    rw [this, List.append_nil]
    exact hl

/-- what `closing` says about `j` -/
theorem closing_about {st : St} (ho : OneOpen (fun j => (st.recs j).col) st.prt) (j : Nat) :
    about j (closing (fun j => (st.recs j).col) st.prt) =
      if (st.recs j).col ≠ 0 then [.unfin, .nl] else [] := by
  by_cases hj : (st.recs j).col = 0
  · simp only [hj, ne_eq, not_true_eq_false, if_false]
    cases hp : st.prt with
    | none => rfl
    | some p =>
      simp only [closing]
      split
      · rename_i hc
        have : p ≠ j := by intro h; rw [h] at hc; exact hc hj
        rw [about_other this, about_other this, about_nil]
      · rfl
  · have hp : st.prt = some j := ho j hj
    rw [if_pos hj, hp]
    simp [closing, hj, about]

/-- the text of the others after their line was closed, if it was theirs -/
theorem run_closed {ph : Phase} {r : Rec} {prt : Bool} {a : A}
    (h : RecInv ph r prt (some a)) :
    ∃ a', a.run (if r.col ≠ 0 then [.unfin, .nl] else []) = some a' ∧ RecInv ph { r with col := 0 } false (some a') := by
  by_cases hc : r.col = 0
  · refine ⟨a, by simp [hc, A.run], ?_⟩
    cases ph with
    | unborn => exact ⟨rfl, h.2⟩
    | idle => exact ⟨rfl, h.2⟩
    | inCall n shown =>
      simp only [RecInv] at h ⊢
      cases shown with
      | true =>
        simp only [if_true] at h ⊢
        obtain ⟨h1, h2, h3, h4⟩ := h
        refine ⟨h1, h2, h3, ?_⟩
        rcases h4 with h4 | h4
        · exact absurd hc h4.1
        · exact Or.inr ⟨rfl, h4.2.1, Or.inr rfl⟩
      | false => exact ⟨trivial, h.2⟩
    | failed n =>
      obtain ⟨h1, h2, h4⟩ := h
      refine ⟨h1, h2, ?_⟩
      rcases h4 with h4 | h4
      · exact absurd hc h4.1
      · exact Or.inr ⟨rfl, h4.2.1, Or.inr rfl⟩
    | dying clean =>
      simp only [RecInv] at h ⊢
      rcases h with h | ⟨h1, n, h | h⟩
      · exact Or.inl ⟨trivial, h.2⟩
      · exact absurd hc h.1
      · exact Or.inr ⟨h1, n, Or.inr ⟨trivial, h.2⟩⟩
    | gone => exact ⟨rfl, h.2⟩
  · rw [if_pos hc]
    cases ph with
    | unborn => exact absurd h.1 hc
    | idle => exact absurd h.1 hc
    | gone => exact absurd h.1 hc
    | inCall n shown =>
      simp only [RecInv] at h ⊢
      cases shown with
      | false => exact absurd h.1 hc
      | true =>
        simp only [if_true] at h ⊢
        obtain ⟨h1, h2, h3, h4⟩ := h
        rcases h4 with h4 | h4
        · have := h4.2
          injection this with this
          subst this
          exact ⟨.cut n, rfl, h1, h2, h3, Or.inr ⟨rfl, rfl, Or.inr rfl⟩⟩
        · exact absurd h4.1 hc
    | failed n =>
      obtain ⟨h1, h2, h4⟩ := h
      rcases h4 with h4 | h4
      · have := h4.2
        injection this with this
        subst this
        exact ⟨.cut n, rfl, h1, h2, Or.inr ⟨rfl, rfl, Or.inr rfl⟩⟩
      · exact absurd h4.1 hc
    | dying clean =>
      simp only [RecInv] at h ⊢
      rcases h with h | ⟨h1, n, h | h⟩
      · exact absurd h.1 hc
      · have := h.2
        injection this with this
        subst this
        exact ⟨.cut n, rfl, Or.inr ⟨h1, n, Or.inr ⟨trivial, rfl⟩⟩⟩
      · exact absurd h.1 hc

theorem RecInv.some {ph : Phase} {r : Rec} {prt : Bool} {a : Option A} (h : RecInv ph r prt a) :
    ∃ a', a = some a' := by
  cases ph with
  | unborn => exact ⟨_, h.2⟩
  | idle => exact ⟨_, h.2.1⟩
  | gone => exact h.2
  | inCall n shown =>
    simp only [RecInv] at h
    cases shown with
    | false => exact ⟨_, h.2.1⟩
    | true =>
      simp only [if_true] at h
      rcases h.2.2.2 with h | h
      · exact ⟨_, h.2⟩
      · exact ⟨_, h.2.1⟩
  | failed n =>
    rcases h.2.2 with h | h
    · exact ⟨_, h.2⟩
    · exact ⟨_, h.2.1⟩
  | dying clean =>
    simp only [RecInv] at h
    rcases h with h | ⟨_, n, h | h⟩
    · exact ⟨_, h.2⟩
    · exact ⟨_, h.2⟩
    · exact ⟨_, h.2⟩

/-- the text about `j` after `closing` and text about `i` -/
theorem txt_after {st st' : St} {i j : Nat} {l : List Tok} (ho : OneOpen (fun j => (st.recs j).col) st.prt)
    (hf : st'.files 0 = st.files 0 ++ (closing (fun j => (st.recs j).col) st.prt ++ l))
    (hl : ∀ t ∈ l, t.who = i) {a : A} (ha : txt st j = some a) (hij : j ≠ i) :
    txt st' j = a.run (if (st.recs j).col ≠ 0 then [.unfin, .nl] else []) := by
  have : about j l = [] := by
    unfold about
    rw [List.map_eq_nil_iff, List.filter_eq_nil_iff]
    intro t ht
    simp [hl t ht, Ne.symm hij]
  unfold txt at ha ⊢
  rw [hf, about_append, about_append, closing_about ho, this, List.append_nil, A.run_append, ha]
  rfl

/-- the text about `i` itself -/
theorem txt_self {st st' : St} {i : Nat} {l : List Tok} (ho : OneOpen (fun j => (st.recs j).col) st.prt)
    (hf : st'.files 0 = st.files 0 ++ (closing (fun j => (st.recs j).col) st.prt ++ l))
    {a a' : A} (ha : txt st i = some a) (ha' : a.run (if (st.recs i).col ≠ 0 then [.unfin, .nl] else []) = some a') :
    txt st' i = a'.run (about i l) := by
  unfold txt at ha ⊢
  rw [hf, about_append, about_append, closing_about ho, A.run_append, ha]
  simp only [Option.bind_some]
  rw [A.run_append, ha']
  rfl

/-- what a record was, up to its column -/
theorem RecInv.others {ph : Phase} {st st' : St} {i j : Nat} {l : List Tok}
    (ho : OneOpen (fun j => (st.recs j).col) st.prt)
    (h : RecInv ph (st.recs j) (decide (st.prt = Option.some j)) (txt st j))
    (hf : st'.files 0 = st.files 0 ++ (closing (fun j => (st.recs j).col) st.prt ++ l))
    (hl : ∀ t ∈ l, t.who = i) (hij : j ≠ i) (hr : st'.recs j = { st.recs j with col := 0 })
    (hp : st'.prt ≠ Option.some j) :
    RecInv ph (st'.recs j) (decide (st'.prt = Option.some j)) (txt st' j) := by
  obtain ⟨a, ha⟩ := h.some
  rw [ha] at h
  obtain ⟨a', h1, h2⟩ := run_closed h
  rw [hr, txt_after ho hf hl ha hij, h1]
  have : decide (st'.prt = Option.some j) = false := by simp [hp]
  rw [this]
  exact h2

end Strace.Out
