import Verif.Expl.Spec
namespace Strace.Expl
open Spec

/-- The two kinds of calls whose decoders ask for an explanation and give none: NS_GET_NSTYPE that has failed, and
PR_GET_SPECULATION_CTRL of a misfeature that strace does not know, that has not. -/
def Borrows (c : Call) : Prop :=
  (c.dec = .nsGetNstype ∧ c.failed = true) ∨ (∃ m, c.dec = .prGetSpeculationCtrl m ∧ 3 ≤ m ∧ c.failed = false)

theorem shown_explainIt (s : State) (tid : Nat) (c : Call) :
    shownText (apply s tid c (explainIt c)) tid (explainIt c) = c.own := by
  cases hb : bufOf c.dec <;> cases ho : c.own <;>
    simp [explainIt, apply, shownText, text, hb, ho, into, table, fill, upd, deref]

theorem shown_nothing (s : State) (tid : Nat) (c : Call) : shownText (apply s tid c nothing) tid nothing = none := rfl

theorem shown_timeout (s : State) (tid : Nat) (c : Call) :
    shownText (apply s tid c ⟨some (some (.lit timeout)), true⟩) tid ⟨some (some (.lit timeout)), true⟩
      = some timeout := by
  simp [apply, shownText, upd, deref]

theorem shown_ns (s : State) (tid : Nat) (c : Call) :
    shownText (apply s tid c ⟨some (text c), c.own.isSome⟩) tid ⟨some (text c), c.own.isSome⟩ = c.own := by
  cases hb : bufOf c.dec <;> cases ho : c.own <;>
    simp [apply, shownText, text, hb, ho, into, table, fill, upd, deref]

theorem shown_null (s : State) (tid : Nat) (c : Call) (b : Bool) :
    shownText (apply s tid c ⟨some none, b⟩) tid ⟨some none, b⟩ = none := by
  cases b <;> simp [apply, shownText, upd]

/-- The cases of the decoders, of any way to show that has the equations above. -/
theorem cases_of (sh : Act → Option Txt) (c : Call) (hs : Sane c) (hb : ¬ Borrows c) (e1 : sh (explainIt c) = c.own)
    (e2 : sh nothing = none) (e3 : sh ⟨some (some (.lit timeout)), true⟩ = some "Timeout".toList)
    (e4 : sh ⟨some (text c), c.own.isSome⟩ = c.own) (e5 : ∀ b, sh ⟨some none, b⟩ = none) :
    sh (onExit c) = explanation c := by
  obtain ⟨dec, failed, rval, own, avail⟩ := c
  obtain ⟨h1, h2⟩ := hs
  generalize ha : explainIt ⟨dec, failed, rval, own, avail⟩ = ac at e1
  generalize hn : (⟨some (text ⟨dec, failed, rval, own, avail⟩), own.isSome⟩ : Act) = an at e4
  simp only [onExit, explanation, ha, hn]
  cases failed with
  | true =>
    have h1 : rval = -1 := h1 rfl
    subst h1
    cases dec <;> simp_all [Borrows]
  | false =>
    have hspec : ∀ m, dec = .prGetSpeculationCtrl m → m < 3 := fun m hm => by
      apply Classical.byContradiction
      intro hn
      exact hb (Or.inr ⟨m, hm, by omega, rfl⟩)
    have hx : dec = .archReqXcompPerm → rval ≤ 0 → rval = 0 := fun hd hle => by
      have := h2 hd rfl
      simp only at this
      omega
    cases dec with
    | membarrier cmd =>
      by_cases hc : cmd = 0 <;> by_cases hr : rval = 0 <;> simp [rule, hc, hr, e1, e2]
    | prGetSpeculationCtrl m =>
      have := hspec m rfl
      have hm : m = 0 ∨ m = 1 ∨ m = 2 := by omega
      simp [rule, needs, hm, this, e1]
    | archReqXcompPerm =>
      by_cases hr : rval ≤ 0
      · have := hx rfl hr
        subst this
        simp [rule, e2]
      · have hr0 : rval ≠ 0 := by omega
        simp [rule, hr, hr0, e1]
    | poll =>
      by_cases hr : rval = 0 <;> cases avail <;> by_cases ho : own = none <;>
        simp [rule, needs, hr, ho, e1, e2, e3]
    | _ =>
      by_cases hr : rval = 0 <;> cases avail <;> simp [rule, needs, hr, e1, e2, e3, e4, e5]

/-- **The explanation of a result is its own**, whatever strace's memory was before, for all calls but those that borrow. -/
theorem exit_partial (s : State) (tid : Nat) (c : Call) (hs : Sane c) (hb : ¬ Borrows c) :
    (exitCall s tid c).2 = explanation c := by
  simp only [exitCall]
  have e : timeout = "Timeout".toList := by decide
  exact cases_of (fun a => shownText (apply _ tid c a) tid a) c hs hb (shown_explainIt _ tid c) (shown_nothing _ tid c)
    (by rw [← e]; exact shown_timeout _ tid c) (shown_ns _ tid c) (fun b => shown_null _ tid c b)

/-- The lines of a history are right from any state, if no call in it borrows. -/
theorem run_partial : ∀ (l : List Event) (s : State),
    (∀ t c, Event.exit t c ∈ l → Sane c ∧ ¬ Borrows c) → run s l = lines l
  | [], _, _ => rfl
  | .enter t d own :: l, s, h => by
    simp only [run, lines]
    exact run_partial l _ fun t c hm => h t c (List.mem_cons_of_mem _ hm)
  | .exit t c :: l, s, h => by
    obtain ⟨hs, hb⟩ := h t c (List.mem_cons_self ..)
    simp only [run, lines]
    rw [exit_partial s t c hs hb, run_partial l _ fun t c hm => h t c (List.mem_cons_of_mem _ hm)]
  | .write b x :: l, s, h => by
    simp only [run, lines]
    exact run_partial l _ fun t c hm => h t c (List.mem_cons_of_mem _ hm)

/-- **In any history of any number of threads, each result has its own explanation**, if no call in it borrows. -/
theorem history_partial (l : List Event) (h : ∀ t c, Event.exit t c ∈ l → Sane c ∧ ¬ Borrows c) :
    run init l = lines l := run_partial l init h

/-- A state in which thread `tid` has the text `t` left from a call before. -/
def left (tid : Nat) (t : Txt) : State := ⟨fun x => if x = tid then some (.lit t) else none, fun _ => 0, fun _ => false,
  fun _ => []⟩

/-- A call that borrows shows whatever text was left. -/
theorem borrowed (tid : Nat) (t : Txt) (c : Call) (h : Borrows c) : (exitCall (left tid t) tid c).2 = some t := by
  obtain ⟨dec, failed, rval, own, avail⟩ := c
  rcases h with ⟨rfl, rfl⟩ | ⟨m, rfl, hm, rfl⟩
  · simp [exitCall, onExit, apply, shownText, left, deref]
  · have h0 : ¬ (m = 0 ∨ m = 1 ∨ m = 2) := by omega
    simp [exitCall, onExit, h0, apply, shownText, left, deref]

/-- **Exactly the calls that do not borrow are explained by themselves**: from all states and for all threads. -/
theorem exit_iff (c : Call) (hs : Sane c) :
    (∀ s tid, (exitCall s tid c).2 = explanation c) ↔ ¬ Borrows c := by
  constructor
  · intro h hb
    have h1 := h (left 0 ['a']) 0
    have h2 := h (left 0 ['b']) 0
    rw [borrowed 0 _ c hb] at h1 h2
    rw [← h1] at h2
    simp at h2
  · intro hb s tid
    exact exit_partial s tid c hs hb

/-- A call that has failed is shown without an explanation, unless it is NS_GET_NSTYPE. -/
theorem failed_partial (s : State) (tid : Nat) (c : Call) (hs : Sane c) (hf : c.failed = true) (hn : c.dec ≠ .nsGetNstype) :
    (exitCall s tid c).2 = none := by
  rw [exit_partial s tid c hs]
  · simp [explanation, hf]
  · rintro (⟨h, _⟩ | ⟨m, _, _, h⟩)
    · exact hn h
    · rw [hf] at h; cases h

/-! ## The calls that borrow -/

/-- F_GETFL that has returned O_RDWR. -/
def getfl : Call := ⟨.fGetfl, false, 2, some "flags O_RDWR".toList, true⟩

/-- NS_GET_NSTYPE of a descriptor that is not of a namespace: it fails with ENOTTY. -/
def nstype : Call := ⟨.nsGetNstype, true, -1, none, true⟩

/-- The full claim is false: an ioctl that has failed is shown with the flags of the file that was asked for before it,
`ioctl(3, NS_GET_NSTYPE) = -1 ENOTTY (…) (flags O_RDWR)`. -/
theorem failed_counterexample :
    run init [.exit 7 getfl, .exit 7 nstype] = [(7, some "flags O_RDWR".toList), (7, some "flags O_RDWR".toList)]
    ∧ lines [.exit 7 getfl, .exit 7 nstype] = [(7, some "flags O_RDWR".toList), (7, none)]
    ∧ run init [.exit 7 nstype] = [(7, none)] := by
  refine ⟨?_, ?_, ?_⟩ <;> decide +kernel

/-- The text borrowed can be one that another thread has left in the same buffer in the meantime. -/
theorem other_thread_counterexample :
    run init [.exit 7 ⟨.fGetfd, false, 1, some "flags FD_CLOEXEC".toList, true⟩,
        .exit 8 ⟨.fGetSeals, false, 8, some "seals F_SEAL_WRITE".toList, true⟩, .exit 7 nstype]
      = [(7, some "flags FD_CLOEXEC".toList), (8, some "seals F_SEAL_WRITE".toList),
        (7, some "seals F_SEAL_WRITE".toList)] := by
  decide +kernel

/-- The state of a misfeature unknown to strace is shown with the explanation of an earlier result. -/
theorem speculation_counterexample :
    run init [.exit 7 getfl, .exit 7 ⟨.prGetSpeculationCtrl 3, false, 6, none, true⟩]
      = [(7, some "flags O_RDWR".toList), (7, some "flags O_RDWR".toList)] := by
  decide +kernel

/-- A history of two threads that meets the hypotheses, with buffers written by others in between and with
PR_PPC_GET_DEXCR entered after a call with a result. -/
example : run init [.exit 7 getfl, .enter 7 .prPpcGetDexcr (some ['x']), .write .flags ['y'],
      .exit 8 ⟨.select, false, 0, none, true⟩, .exit 7 ⟨.prPpcGetDexcr, false, 0, none, true⟩]
    = [(7, some "flags O_RDWR".toList), (8, some "Timeout".toList), (7, none)] := by
  decide +kernel

example : Sane getfl ∧ ¬ Borrows getfl ∧ Sane nstype ∧ Borrows nstype := by
  refine ⟨⟨by decide, by decide⟩, ?_, ⟨by decide, by decide⟩, Or.inl ⟨rfl, rfl⟩⟩
  rintro (⟨h, _⟩ | ⟨m, h, _⟩) <;> cases h

end Strace.Expl
