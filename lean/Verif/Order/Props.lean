import Verif.Order.Spec
/-! # Proofs for C114 -/
namespace Strace.Order

theorem script_true : script true =
    [.signalStop, .seccompStop, .syscallStop, .syscallStop, .syscallStop, .end0] := by decide
theorem script_false : script false =
    [.signalStop, .syscallStop, .seccompStop, .syscallStop, .syscallStop, .end0] := by decide

/-- what is still to be seen from a step on; at steps 0 and 1 the order is not known yet -/
def rest (step : Nat) (b : Bool) : List Kind := (script b).drop step

theorem seen_eintr (evs : List Ev) : seen (.eintr :: evs) = seen evs := by simp [seen]
theorem seen_cons (e : Ev) (evs : List Ev) (h : e ≠ .eintr) : seen (e :: evs) = e :: seen evs := by simp [seen, h]

def SeenFrom (step : Nat) (b : Bool) (evs : List Ev) : Prop :=
  ((seen evs).take (rest step b).length).map kindOf = (rest step b).map some

/-- the step of a script, as a function of its number -/
def kindAt (b : Bool) : Nat → Kind
  | 0 => .signalStop
  | 1 => if b then .seccompStop else .syscallStop
  | 2 => if b then .syscallStop else .seccompStop
  | 3 => .syscallStop
  | 4 => .syscallStop
  | _ => .end0

theorem rest_eq (step : Nat) (b : Bool) (h : step < 6) : rest step b = kindAt b step :: rest (step + 1) b := by
  cases b <;> (match step, h with
    | 0, _ => rfl
    | 1, _ => rfl
    | 2, _ => rfl
    | 3, _ => rfl
    | 4, _ => rfl
    | 5, _ => rfl)

theorem rest_six (b : Bool) : rest 6 b = [] := by cases b <;> rfl

theorem seenFrom_cons (step : Nat) (b : Bool) (e : Ev) (evs : List Ev) (h : step < 6) (he : e ≠ .eintr) :
    SeenFrom step b (e :: evs) ↔ kindOf e = some (kindAt b step) ∧ SeenFrom (step + 1) b evs := by
  unfold SeenFrom
  rw [rest_eq step b h, seen_cons e evs he]
  simp

/-- the order known so far; at steps 0 and 1 it is not -/
def Possible (step : Nat) (before b : Bool) : Prop := step ≤ 1 ∨ before = b

theorem kind_other (sig event : Nat) (o r : Bool) (h1 : sig ≠ 19) (h2 : sig ≠ 5) (h3 : sig ≠ 133) :
    kindOf (.stopped sig event o r) = none := by
  unfold kindOf; split <;> simp_all

theorem kind_trap (event : Nat) (o r : Bool) (h : event ≠ 7) : kindOf (.stopped 5 event o r) = none := by
  unfold kindOf; split <;> simp_all

theorem kind_resume (sig event : Nat) (o : Bool) : kindOf (.stopped sig event o false) = none := by
  unfold kindOf; split <;> simp_all

/-- a stop is accepted just when it is the next one of an order that is possible -/
theorem stop_iff (step : Nat) (before : Bool) (sig event : Nat) (o : Bool) (b : Bool) (h : step < 5) :
    (∃ b', stopOk step before sig event o = some b' ∧ (Possible (step + 1) b' b) ∧ Possible step before b) ↔
    kindOf (.stopped sig event o true) = some (kindAt b step) ∧ Possible step before b := by
  by_cases h1 : sig = 19
  · subst h1
    cases o
    · have : kindOf (.stopped 19 event false true) = none := rfl
      simp [this, stopOk, sigstop]
    · have : kindOf (.stopped 19 event true true) = some .signalStop := rfl
      rw [this]
      match step, h with
      | 0, _ => simp [stopOk, atSeccomp, atSyscall, sigstop, kindAt, Possible]
      | 1, _ => cases b <;> simp [stopOk, atSeccomp, atSyscall, sigstop, kindAt]
      | 2, _ => cases b <;> simp [stopOk, atSeccomp, atSyscall, sigstop, kindAt]
      | 3, _ => simp [stopOk, atSeccomp, atSyscall, sigstop, kindAt]
      | 4, _ => simp [stopOk, atSeccomp, atSyscall, sigstop, kindAt]
  · by_cases h2 : sig = 5
    · subst h2
      by_cases he : event = 7
      · subst he
        have : kindOf (.stopped 5 7 o true) = some .seccompStop := rfl
        rw [this]
        match step, h with
        | 0, _ => simp [stopOk, atSeccomp, atSyscall, sigstop, sigtrap, eventSeccomp, kindAt]
        | 1, _ => cases b <;> simp [stopOk, atSeccomp, atSyscall, sigstop, sigtrap, eventSeccomp, kindAt, Possible]
        | 2, _ => cases b <;> cases before <;> simp [stopOk, atSeccomp, atSyscall, sigstop, sigtrap, eventSeccomp, kindAt, Possible]
        | 3, _ => simp [stopOk, atSeccomp, atSyscall, sigstop, sigtrap, eventSeccomp, kindAt]
        | 4, _ => simp [stopOk, atSeccomp, atSyscall, sigstop, sigtrap, eventSeccomp, kindAt]
      · rw [kind_trap event o true he]
        simp [stopOk, atSeccomp, atSyscall, sigstop, sigtrap, eventSeccomp, he]
    · by_cases h3 : sig = 133
      · subst h3
        have : kindOf (.stopped 133 event o true) = some .syscallStop := rfl
        rw [this]
        match step, h with
        | 0, _ => simp [stopOk, atSeccomp, atSyscall, sigstop, sigtrap, kindAt]
        | 1, _ => cases b <;> simp [stopOk, atSeccomp, atSyscall, sigstop, sigtrap, kindAt, Possible]
        | 2, _ => cases b <;> cases before <;> simp [stopOk, atSeccomp, atSyscall, sigstop, sigtrap, kindAt, Possible]
        | 3, _ => simp [stopOk, atSeccomp, atSyscall, sigstop, sigtrap, kindAt, Possible]
        | 4, _ => simp [stopOk, atSeccomp, atSyscall, sigstop, sigtrap, kindAt, Possible]
      · rw [kind_other sig event o true h1 h2 h3]
        simp [stopOk, atSeccomp, atSyscall, sigstop, sigtrap, h1, h2, h3]

/-- no stop is accepted from the sixth event on -/
theorem stop_late (step : Nat) (before : Bool) (sig event : Nat) (o : Bool) (h : 5 ≤ step) : stopOk step before sig event o = none := by
  obtain ⟨k, rfl⟩ := Nat.exists_eq_add_of_le h
  unfold stopOk
  have e : 5 + k = k + 5 := Nat.add_comm 5 k
  rw [e]
  by_cases h1 : sig = sigstop
  · simp [h1]
  · by_cases h2 : sig = sigtrap
    · simp [h2, sigstop, sigtrap, atSeccomp]
    · by_cases h3 : sig = sigtrap + 128
      · simp [h3, sigstop, sigtrap, atSyscall]
      · simp [h1, h2, h3]

theorem kind_stopped (sig event : Nat) (o r : Bool) : kindOf (.stopped sig event o r) ≠ some .end0 := by
  unfold kindOf; split <;> simp_all

theorem kindAt_end (b : Bool) (step : Nat) (h : step < 5) : kindAt b step ≠ .end0 := by
  cases b <;> (match step, h with
    | 0, _ => decide
    | 1, _ => decide
    | 2, _ => decide
    | 3, _ => decide
    | 4, _ => decide)

theorem kind_exited (c : Nat) (k : Kind) : kindOf (.exited c) = some k ↔ c = 0 ∧ k = .end0 := by
  unfold kindOf; split <;> simp_all [eq_comm]

/-- the test from a step on -/
theorem tracer_iff (b : Bool) (evs : List Ev) : ∀ (step : Nat) (before : Bool), step < 6 →
    ((∃ r l, tracer step before evs = some (r, l) ∧ r.filtering = true ∧ r.before = b ∧ Possible step before b) ↔
      SeenFrom step b evs ∧ Possible step before b) := by
  induction evs with
  | nil =>
    intro step before h
    simp [tracer, SeenFrom, seen, rest_eq step b h]
  | cons e evs ih =>
    intro step before h
    cases e with
    | eintr =>
      have : SeenFrom step b (.eintr :: evs) ↔ SeenFrom step b evs := by unfold SeenFrom; rw [seen_eintr]
      rw [this, ← ih step before h]
      simp [tracer]
    | waitFails =>
      rw [seenFrom_cons step b _ evs h (by simp)]
      simp [tracer, kindOf]
    | odd =>
      rw [seenFrom_cons step b _ evs h (by simp)]
      simp [tracer, kindOf]
    | signaled s =>
      rw [seenFrom_cons step b _ evs h (by simp)]
      simp [tracer, kindOf]
    | exited c =>
      rw [seenFrom_cons step b _ evs h (by simp), kind_exited]
      by_cases h5 : step = 5
      · subst h5
        have e6 : SeenFrom 6 b evs := by unfold SeenFrom; rw [rest_six]; simp
        by_cases hc : c = 0
        · subst hc; simp [tracer, kindAt, e6, Possible]
        · simp [tracer, hc]
      · have := kindAt_end b step (by omega)
        simp [tracer, h5, this]
    | stopped sig event o r =>
      rw [seenFrom_cons step b _ evs h (by simp)]
      by_cases h5 : step = 5
      · subst h5
        have hk : kindAt b 5 = .end0 := rfl
        rw [hk]
        have := kind_stopped sig event o r
        simp [tracer, stop_late 5 before sig event o (by omega), this]
      · cases r with
        | false =>
          rw [kind_resume]
          simp only [tracer]
          cases stopOk step before sig event o <;> simp
        | true =>
          have hs := stop_iff step before sig event o b (by omega)
          simp only [tracer]
          constructor
          · rintro ⟨r, l, hr, hf, hb, hp⟩
            cases hst : stopOk step before sig event o with
            | none => rw [hst] at hr; simp at hr; rw [← hr.1] at hf; simp at hf
            | some b' =>
              rw [hst] at hr
              simp only [Bool.true_eq_false, if_false] at hr
              -- the order found is the one kept
              have hp' : Possible (step + 1) b' b := by
                match step, h with
                | 0, _ => exact Or.inl (by omega)
                | step + 1, _ =>
                  right
                  -- from step 2 on the order does not change
                  have keep : ∀ (evs : List Ev) (st : Nat) (x : Bool) (r : Res) (l : List Ev), 2 ≤ st →
                      tracer st x evs = some (r, l) → r.before = x := by
                    intro evs
                    induction evs with
                    | nil => intro st x r l _ he; simp [tracer] at he
                    | cons e evs ih2 =>
                      intro st x r l hst he
                      cases e with
                      | eintr => exact ih2 st x r l hst (by simpa [tracer] using he)
                      | waitFails => simp [tracer] at he; rw [← he.1]
                      | odd => simp [tracer] at he; rw [← he.1]
                      | signaled s => simp [tracer] at he; rw [← he.1]
                      | exited c =>
                        simp only [tracer] at he
                        split at he <;> (simp at he; rw [← he.1])
                      | stopped sig event o r' =>
                        simp only [tracer] at he
                        have hx : ∀ y, stopOk st x sig event o = some y → y = x := by
                          intro y hy
                          unfold stopOk at hy
                          split at hy
                          · simp_all
                          · split at hy
                            · split at hy
                              · simp at hy
                              · unfold atSeccomp at hy
                                split at hy
                                · omega
                                · split at hy <;> simp_all
                                · simp at hy
                            · split at hy
                              · unfold atSyscall at hy
                                split at hy
                                · simp_all
                                · simp_all
                                · omega
                                · split at hy <;> simp_all
                                · simp at hy
                              · simp at hy
                        cases hso : stopOk st x sig event o with
                        | none => rw [hso] at he; simp at he; rw [← he.1]
                        | some y =>
                          rw [hso] at he
                          have := hx y hso
                          subst this
                          cases r' with
                          | false => simp at he; rw [← he.1]
                          | true => simp only [Bool.true_eq_false, if_false] at he; exact ih2 (st + 1) y r l (by omega) he
                  have := keep evs (step + 2) b' r l (by omega) hr
                  rw [← this, hb]
              have h1 := hs.mp ⟨b', hst, hp', hp⟩
              have h2 := (ih (step + 1) b' (by omega)).mp ⟨r, l, hr, hf, hb, hp'⟩
              exact ⟨⟨h1.1, h2.1⟩, hp⟩
          · rintro ⟨⟨hk, hse⟩, hp⟩
            obtain ⟨b', hst, hp', _⟩ := hs.mpr ⟨hk, hp⟩
            obtain ⟨r, l, hr, hf, hb, _⟩ := (ih (step + 1) b' (by omega)).mpr ⟨hse, hp'⟩
            exact ⟨r, l, by rw [hst]; simpa using hr, hf, hb, hp⟩

/-- **C114.** The test comes out in favour of filtering just when the kernel was seen to make the stops of one of the two orders, and the order
recorded is that one. -/
theorem order_iff (before0 b : Bool) (evs : List Ev) :
    (∃ r l, tracer 0 before0 evs = some (r, l) ∧ r.filtering = true ∧ r.before = b) ↔ Seen b evs := by
  have := tracer_iff b evs 0 before0 (by omega)
  simp only [Possible, Nat.zero_le, true_or, and_true] at this
  exact this

/-- the two orders exclude each other -/
theorem order_unique (evs : List Ev) : ¬ (Seen true evs ∧ Seen false evs) := by
  rintro ⟨h1, h2⟩
  unfold Seen at h1 h2
  rw [script_true] at h1
  rw [script_false] at h2
  simp only [List.length_cons, List.length_nil] at h1 h2
  rw [h1] at h2
  simp at h2

/-- what the tracer has used of the events, and whether the child is still there -/
theorem tracer_used (evs : List Ev) : ∀ (step : Nat) (before : Bool) (r : Res) (l : List Ev), tracer step before evs = some (r, l) →
    ∃ used, evs = used ++ l ∧ (r.alive = false ↔ ∃ e ∈ used, Gone e) ∧ (r.filtering = true → r.alive = false) ∧
      (r.messages = 0 ↔ r.filtering = true) := by
  induction evs with
  | nil => intro step before r l h; simp [tracer] at h
  | cons e evs ih =>
    intro step before r l h
    cases e with
    | eintr =>
      obtain ⟨u, h1, h2, h3⟩ := ih step before r l (by simpa [tracer] using h)
      exact ⟨.eintr :: u, by simp [h1], by simp [h2, Gone], h3⟩
    | waitFails =>
      simp [tracer] at h; obtain ⟨rfl, rfl⟩ := h
      exact ⟨[.waitFails], rfl, by simp [Gone], by simp⟩
    | odd =>
      simp [tracer] at h; obtain ⟨rfl, rfl⟩ := h
      exact ⟨[.odd], rfl, by simp [Gone], by simp⟩
    | signaled s =>
      simp [tracer] at h; obtain ⟨rfl, rfl⟩ := h
      exact ⟨[.signaled s], rfl, by simp [Gone], by simp⟩
    | exited c =>
      simp only [tracer] at h
      split at h <;>
      · simp at h; obtain ⟨rfl, rfl⟩ := h
        exact ⟨[.exited c], rfl, by simp [Gone], by simp⟩
    | stopped sig event o r' =>
      simp only [tracer] at h
      cases hso : stopOk step before sig event o with
      | none =>
        rw [hso] at h; simp at h; obtain ⟨rfl, rfl⟩ := h
        exact ⟨[.stopped sig event o r'], rfl, by simp [Gone], by simp⟩
      | some y =>
        rw [hso] at h
        cases r' with
        | false =>
          simp at h; obtain ⟨rfl, rfl⟩ := h
          exact ⟨[.stopped sig event o false], rfl, by simp [Gone], by simp⟩
        | true =>
          simp only [Bool.true_eq_false, if_false] at h
          obtain ⟨u, h1, h2, h3⟩ := ih (step + 1) y r l h
          exact ⟨.stopped sig event o true :: u, by simp [h1], by simp [h2, Gone], h3⟩

theorem reap_used (evs : List Ev) : ∀ (n k : Nat) (l : List Ev), reap n evs = some (k, l) →
    ∃ m e, evs = List.replicate m .eintr ++ e :: l ∧ e ≠ .eintr ∧ k = n + m + 1 := by
  induction evs with
  | nil => intro n k l h; simp [reap] at h
  | cons e evs ih =>
    intro n k l h
    by_cases he : e = .eintr
    · subst he
      obtain ⟨m, e, h1, h2, h3⟩ := ih (n + 1) k l (by simpa [reap] using h)
      exact ⟨m + 1, e, by simp [List.replicate_succ, h1], h2, by omega⟩
    · have : reap n (e :: evs) = some (n + 1, evs) := by cases e <;> simp_all [reap]
      rw [this] at h
      simp at h
      obtain ⟨rfl, rfl⟩ := h
      exact ⟨0, e, by simp, he, by omega⟩

/-- **C114.** The child made for the test is not left behind: either its end was seen, or it was sent SIGKILL, and then waited for until `waitpid`
came back for it; it is never sent a signal after its end was seen. -/
theorem child_gone (evs : List Ev) (c : Checked) (h : checkOrder true evs = some c) :
    ∃ used, (evs = used ++ c.left ∧ c.killed = false ∧ ∃ e ∈ used, Gone e) ∨
      (∃ m last, evs = used ++ List.replicate m .eintr ++ last :: c.left ∧ last ≠ .eintr ∧ c.killed = true ∧ ∀ e ∈ used, ¬ Gone e) := by
  unfold checkOrder at h
  simp only [Bool.true_eq_false, if_false] at h
  cases ht : tracer 0 false evs with
  | none => rw [ht] at h; simp at h
  | some p =>
    obtain ⟨r, l⟩ := p
    rw [ht] at h
    obtain ⟨u, h1, h2, _⟩ := tracer_used evs 0 false r l ht
    simp only at h
    cases ha : r.alive with
    | false =>
      rw [ha] at h
      simp at h
      subst h
      exact ⟨u, Or.inl ⟨h1, rfl, h2.mp ha⟩⟩
    | true =>
      rw [ha] at h
      simp only [if_true] at h
      cases hr : reap 0 l with
      | none => rw [hr] at h; simp at h
      | some q =>
        obtain ⟨k, l2⟩ := q
        rw [hr] at h
        simp at h
        subst h
        obtain ⟨m, e, h3, h4, _⟩ := reap_used l 0 k l2 hr
        refine ⟨u, Or.inr ⟨m, e, ?_, h4, rfl, ?_⟩⟩
        · rw [h1, h3]; simp
        · intro x hx hg
          have := h2.mpr ⟨x, hx, hg⟩
          rw [ha] at this; simp at this

theorem checkOrder_iff (forkOk b : Bool) (evs : List Ev) :
    (∃ c, checkOrder forkOk evs = some c ∧ c.filtering = true ∧ c.before = b) ↔ forkOk = true ∧ Seen b evs := by
  cases forkOk with
  | false => simp [checkOrder]
  | true =>
    rw [← order_iff false b evs]
    unfold checkOrder
    simp only [Bool.true_eq_false, if_false, true_and]
    cases ht : tracer 0 false evs with
    | none => simp
    | some p =>
      obtain ⟨r, l⟩ := p
      obtain ⟨u, _, _, h3, _⟩ := tracer_used evs 0 false r l ht
      constructor
      · rintro ⟨c, hc, hf, hb⟩
        simp only at hc
        cases ha : r.alive with
        | false => rw [ha] at hc; simp at hc; subst hc; exact ⟨r, l, rfl, hf, hb⟩
        | true =>
          rw [ha] at hc
          cases hr : reap 0 l with
          | none => rw [hr] at hc; simp at hc
          | some q => rw [hr] at hc; simp at hc; subst hc; exact ⟨r, l, rfl, hf, hb⟩
      · rintro ⟨r', l', he, hf, hb⟩
        simp at he
        obtain ⟨rfl, rfl⟩ := he
        have ha := h3 hf
        exact ⟨⟨r.filtering, r.before, true, false, r.messages, l⟩, by simp [ha], hf, hb⟩

/-! ## the program -/

/-- `choose` finds the first of the shortest programs of those that are usable -/
theorem choose_spec (gs : List (Nat × Bool)) : ∀ (i : Nat) (best : Nat × Option Nat),
    (choose i best gs = best ∧ ∀ g ∈ gs, g.2 = false → best.1 ≤ g.1) ∨
    (∃ k len, gs[k]? = some (len, false) ∧ choose i best gs = (len, some (i + k)) ∧ len < best.1 ∧
      (∀ g ∈ gs, g.2 = false → len ≤ g.1) ∧ ∀ j g, j < k → gs[j]? = some g → g.2 = false → len < g.1) := by
  induction gs with
  | nil => intro i best; left; simp [choose]
  | cons g gs ih =>
    obtain ⟨len, ov⟩ := g
    intro i best
    simp only [choose]
    by_cases hc : len < best.1 ∧ ov = false
    · rw [if_pos hc]
      obtain ⟨hl, rfl⟩ := hc
      rcases ih (i + 1) (len, some i) with ⟨h1, h2⟩ | ⟨k, n, h1, h2, h3, h4, h5⟩
      · right
        refine ⟨0, len, by simp, by simpa using h1, hl, ?_, by simp⟩
        intro g hg ho
        rcases List.mem_cons.mp hg with rfl | hg
        · exact Nat.le_refl _
        · exact h2 g hg ho
      · right
        simp only at h3
        refine ⟨k + 1, n, by simpa using h1, by rw [h2]; simp; omega, by omega, ?_, ?_⟩
        · intro g hg ho
          rcases List.mem_cons.mp hg with rfl | hg
          · simp only; omega
          · exact h4 g hg ho
        · intro j g hj hg ho
          cases j with
          | zero => simp at hg; subst hg; exact h3
          | succ j => exact h5 j g (by omega) (by simpa using hg) ho
    · rw [if_neg hc]
      have hne : ov = false → best.1 ≤ len := fun ho => by
        rcases Nat.lt_or_ge len best.1 with hl | hl
        · exact absurd ⟨hl, ho⟩ hc
        · exact hl
      rcases ih (i + 1) best with ⟨h1, h2⟩ | ⟨k, n, h1, h2, h3, h4, h5⟩
      · left
        refine ⟨h1, ?_⟩
        intro g hg ho
        rcases List.mem_cons.mp hg with rfl | hg
        · exact hne ho
        · exact h2 g hg ho
      · right
        refine ⟨k + 1, n, by simpa using h1, by rw [h2]; simp; omega, h3, ?_, ?_⟩
        · intro g hg ho
          rcases List.mem_cons.mp hg with rfl | hg
          · have := hne ho; simp only; omega
          · exact h4 g hg ho
        · intro j g hj hg ho
          cases j with
          | zero => simp at hg; subst hg; have := hne ho; simp only; omega
          | succ j => exact h5 j g (by omega) (by simpa using hg) ho

/-- **C114.** The filter is used just when not every call is traced, the kernel knows filters, some generator's program was complete and
not too long, and the kernel was seen to stop in one of the two orders; the order is the one seen and the program is the shortest. -/
theorem used_iff (complete : Bool) (e : Env) (gens : List (Nat × Bool)) (evs : List Ev) (b : Bool) (k : Nat) :
    (∃ l, checkFilter complete e gens evs = some (.on b (some k) l)) ↔
    complete = false ∧ (e.probe < 0 ∧ e.probeErrno ≠ 22) ∧ e.forkOk = true ∧ Seen b evs ∧
    ∃ len, gens[k]? = some (len, false) ∧ len ≤ 4096 ∧ (∀ g ∈ gens, g.2 = false → len ≤ g.1) ∧
      ∀ j g, j < k → gens[j]? = some g → g.2 = false → len < g.1 := by
  unfold checkFilter
  cases complete with
  | true => simp
  | false =>
    by_cases hp : e.probe < 0 ∧ e.probeErrno ≠ einval
    case neg =>
      simp only [Bool.false_eq_true, if_false, hp, not_false_eq_true, if_true]
      constructor
      · rintro ⟨l, h⟩; simp at h
      · rintro ⟨_, h, _⟩; exact absurd h hp
    case pos =>
      rw [if_neg (by simp), if_neg (fun hn => hn hp)]
      have hp' : e.probe < 0 ∧ e.probeErrno ≠ 22 := hp
      rcases choose_spec gens 0 (ushrtMax, none) with ⟨h1, h2⟩ | ⟨k', n, h1, h2, h3, h4, h5⟩
      · rw [h1]
        simp only [if_true]
        constructor
        · rintro ⟨l, h⟩; simp at h
        · rintro ⟨_, _, _, _, len, hg, hl, _⟩
          have := h2 (len, false) (List.mem_of_getElem? hg) rfl
          simp [ushrtMax] at this
          omega
      · rw [h2]
        simp only at h3 ⊢
        rw [if_neg (Nat.ne_of_lt h3)]
        by_cases hm : n > maxInsns
        · rw [if_pos hm]
          constructor
          · rintro ⟨l, h⟩; simp at h
          · rintro ⟨_, _, _, _, len, hg, hl, h6, _⟩
            have := h4 (len, false) (List.mem_of_getElem? hg) rfl
            simp [maxInsns] at hm this
            omega
        · rw [if_neg hm]
          have hc := checkOrder_iff e.forkOk b evs
          constructor
          · rintro ⟨l, h⟩
            cases hco : checkOrder e.forkOk evs with
            | none => rw [hco] at h; simp at h
            | some c =>
              rw [hco] at h
              simp only at h
              cases hf : c.filtering with
              | false => rw [hf] at h; simp at h
              | true =>
                rw [hf] at h
                simp at h
                obtain ⟨hb, hk, _⟩ := h
                have hcc := hc.mp ⟨c, hco, hf, hb⟩
                subst hk
                exact ⟨trivial, hp', hcc.1, hcc.2, n, h1, by simp [maxInsns] at hm; omega, h4, h5⟩
          · rintro ⟨_, _, hfo, hs, len, hg, hl, h6, h7⟩
            obtain ⟨c, hco, hf, hb⟩ := hc.mpr ⟨hfo, hs⟩
            have e1 : n = len := by
              have a1 := h4 (len, false) (List.mem_of_getElem? hg) rfl
              have a2 := h6 (n, false) (List.mem_of_getElem? h1) rfl
              simp only at a1 a2; omega
            have e2 : k' = k := by
              rcases Nat.lt_trichotomy k' k with hlt | he | hlt
              · have := h7 k' (n, false) hlt h1 rfl; simp only at this; omega
              · exact he
              · have := h5 k (len, false) hlt hg rfl; simp only at this; omega
            refine ⟨c.left, ?_⟩
            rw [hco]
            simp [hf, hb, e2]

/-- **C114.** If the filter is used, a program has been chosen. -/
theorem used_program (complete : Bool) (e : Env) (gens : List (Nat × Bool)) (evs : List Ev) (b : Bool) (g : Option Nat) (l : List Ev)
    (h : checkFilter complete e gens evs = some (.on b g l)) : ∃ k, g = some k := by
  unfold checkFilter at h
  split at h
  · simp at h
  · split at h
    · simp at h
    · simp only at h
      rcases choose_spec gens 0 (ushrtMax, none) with ⟨h1, _⟩ | ⟨k', n, _, h2, _⟩
      · rw [h1] at h; simp at h
      · rw [h2] at h
        split at h
        · simp at h
        · split at h
          · simp at h
          · split at h
            · simp at h
            · split at h
              · simp at h; exact ⟨_, h.2.1.symm⟩
              · simp at h

/-- **C114.** The program is started with the filter, or not at all; the right to gain privileges is given up just when the kernel
asks for that, and never for a filter that it takes at once. -/
theorem installed_iff (rc1 : Int) (errno : Nat) (nnp rc2 : Int) :
    (initFilter rc1 errno nnp rc2 = .yes false ↔ rc1 = 0) ∧
    (initFilter rc1 errno nnp rc2 = .yes true ↔ rc1 ≠ 0 ∧ errno = 13 ∧ 0 ≤ nnp ∧ rc2 = 0) ∧
    (∀ x, initFilter rc1 errno nnp rc2 = .die x → rc1 ≠ 0 ∧ (x = true → errno = 13)) := by
  unfold initFilter eacces
  by_cases h1 : rc1 = 0
  · simp [h1]
  · by_cases h2 : errno = 13
    · by_cases h3 : nnp < 0
      · simp [h1, h2, h3]; omega
      · by_cases h4 : rc2 = 0
        · simp [h1, h2, h3, h4]; omega
        · simp [h1, h2, h3, h4]
    · simp [h1, h2]

/-! ## instances -/

def old : List Ev := [.eintr, .stopped 19 0 true true, .stopped 5 7 true true, .stopped 133 0 true true, .eintr, .stopped 133 0 true true,
  .stopped 133 0 true true, .exited 0]
def new : List Ev := [.stopped 19 0 true true, .stopped 133 0 true true, .stopped 5 7 true true, .stopped 133 0 true true,
  .stopped 133 0 true true, .exited 0]

example : tracer 0 false old = some (⟨true, true, false, 0⟩, []) := by decide
example : tracer 0 true new = some (⟨true, false, false, 0⟩, []) := by decide
example : Seen true old := by unfold Seen; decide
example : Seen false new := by unfold Seen; decide
/-- a kernel without stops of the filter -/
example : checkOrder true [.stopped 19 0 true true, .stopped 133 0 true true, .stopped 133 0 true true, .eintr, .signaled 9] =
    some ⟨false, false, true, true, 1, []⟩ := by decide
example : checkFilter false ⟨-1, 14, true⟩ [(5000, false), (200, true), (300, false)] new = some (.on false (some 2) []) := by decide
example : checkFilter false ⟨-1, 14, true⟩ [(5000, false), (200, true)] new = some (.off false 0 new) := by decide
example : checkFilter true ⟨-1, 14, true⟩ [(50, false)] new = some (.off true 0 new) := by decide

end Strace.Order
