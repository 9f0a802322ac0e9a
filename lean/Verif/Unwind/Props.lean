import Verif.Unwind.Spec
import Mathlib.Tactic.Common
/-!
# C100: a stack trace follows the line that it belongs to
-/
namespace Strace.Unwind
open Strace.Base Strace.Lead Strace.Filter

theorem symFmt_eq (i : Info) (c : Nat) (s : List Nat) (h : i.sym = some (c :: s)) :
    symFmt i (c :: s) = codes " > " ++ told i ++ [10] := by
  unfold symFmt told str
  rw [h]
  have e1 : codes "] " = codes "]" ++ codes " " := by decide +kernel
  cases hs : i.src with
  | none => simp
  | some f => simp only [e1]; simp

theorem noSym_eq (i : Info) (b : List Nat) (hb : i.bin = some b) (h : ∀ c s, i.sym ≠ some (c :: s)) :
    noSymFmt b i.trueOff = codes " > " ++ told i ++ [10] := by
  have e1 : codes "() [0x" = codes "(" ++ codes ") [0x" := by decide +kernel
  unfold noSymFmt told
  rw [hb, e1]
  cases hs : i.sym with
  | none => simp
  | some l =>
    cases l with
    | nil => simp
    | cons c s => exact absurd hs (h c s)

theorem printEntry_eq (e : Entry) (h : Known e) : printEntry e = frameLine e := by
  cases e with
  | error m o =>
    unfold printEntry errFmt frameLine
    by_cases ho : o = 0
    · simp [ho]
    · simp [ho]
  | call i =>
    unfold printEntry printCall frameLine
    have hb : ∃ b, i.bin = some b := by
      cases hb : i.bin with
      | none => exact absurd hb h
      | some b => exact ⟨b, rfl⟩
    obtain ⟨b, hb⟩ := hb
    dsimp only
    cases hs : i.sym with
    | none => rw [hb]; exact noSym_eq i b hb (by simp [hs])
    | some l =>
      cases l with
      | nil => rw [hb]; exact noSym_eq i b hb (by simp [hs])
      | cons c s => exact symFmt_eq i c s hs

theorem sprintEntry_eq (e : Entry) (h : Known e) (hn : Named e) : sprintEntry e = frameLine e := by
  rw [← printEntry_eq e h]
  cases e with
  | error m o => rfl
  | call i =>
    unfold sprintEntry printEntry sprintCall printCall
    dsimp only
    cases hs : i.sym with
    | none => cases hb : i.bin with
      | none => exact absurd hb h
      | some b => rfl
    | some l => cases l with
      | nil => exact absurd hs hn
      | cons c s => rfl

/-- the call that a process is in, and what of its stack is waiting -/
structure Agree (s : St) (cur : Option (Nat × Option (List Entry))) : Prop where
  call : s.call = cur.map (·.1)
  inside : cur ≠ none → s.inside = true
  staged : s.staged = false
  queue : s.queue = ((cur.bind (·.2)).getD []).map frameLine
  nonempty : ∀ k st, cur = some (k, some st) → st ≠ []

theorem complete_publish (c : Cfg) (h : c.complete = true) (f : Option Bool) : publish c f = true := by
  unfold publish; cases f <;> simp [h]

theorem agree_none (s : St) (h : Agree s none) : s.queue = [] ∧ s.call = none := ⟨h.queue, h.call⟩

theorem print_direct (s : St) (hq : s.queue = []) (st : List Entry) (hk : ∀ e ∈ st, Known e) :
    tcbPrint s st = (s, stackOf none st) := by
  unfold tcbPrint stackOf
  rw [if_neg (by simp [hq])]
  simp only [Option.getD_none]
  congr 1
  apply List.map_congr_left
  intro e he
  rw [printEntry_eq e (hk e he)]

theorem print_queue (s : St) (st : List Entry) (hne : st ≠ []) (hq : s.queue = st.map frameLine) (now : List Entry) :
    tcbPrint s now = ({ s with queue := [] }, stackOf (some st) now) := by
  unfold tcbPrint stackOf queuePrint
  rw [if_pos (by rw [hq]; simpa using hne), hq, List.map_map]
  rfl

/-- C100: for a process all of whose calls are shown (no -z, -Z, -e status=...) and whose end is not told (-q, or as long as it lives): strace
does not end because of stack traces, and every line is followed by the stack that belongs to it. -/
theorem stacks_partial (c : Cfg) (hc : c.complete = true) (h : List Ev) (hh : History false h) (hr : ∀ e ∈ h, Readable e)
    (hs : ∀ e ∈ h, Stacks e) (hq : c.tellExit = false ∨ Ev.exited ∉ h) :
    run c start h = (expected c.tellExit none h, false) := by
  suffices key : ∀ (h : List Ev) (s : St) (cur : Option (Nat × Option (List Entry))) (ins : Bool), Agree s cur → History ins h →
      (ins = false → cur = none) →
      (∀ e ∈ h, Readable e) → (∀ e ∈ h, Stacks e) → (c.tellExit = false ∨ Ev.exited ∉ h) →
      run c s h = (expected c.tellExit cur h, false) from
    key h start none false ⟨rfl, by simp, rfl, rfl, by simp⟩ hh (fun _ => rfl) hr hs hq
  clear h hh hr hs hq
  have last : ∀ (s : St) (cur : Option (Nat × Option (List Entry))), Agree s cur → c.tellExit = false →
      exited c s = (cur.map fun k => .call k.1 :: stackOf k.2 []).getD [] := by
    intro s cur ha ht
    unfold exited queuePrint
    rw [if_neg (by simp [ha.staged]), ha.call, ha.queue]
    rw [if_neg (by simp [ht])]
    cases cur with
    | none => rfl
    | some k =>
      obtain ⟨k, cap⟩ := k
      cases cap with
      | none => rfl
      | some st => simp [stackOf]
  intro h
  induction h with
  | nil => intro s cur ins ha hh hi hr hs hq; rfl
  | cons e r ih =>
    intro s cur ins ha hh hi hr hs hq
    have hr' : ∀ e ∈ r, Readable e := fun x hx => hr x (List.mem_cons_of_mem _ hx)
    have hs' : ∀ e ∈ r, Stacks e := fun x hx => hs x (List.mem_cons_of_mem _ hx)
    have hq' : c.tellExit = false ∨ Ev.exited ∉ r := hq.imp id fun hn hm => hn (List.mem_cons_of_mem _ hm)
    have he := hs e (List.mem_cons_self ..)
    have hre := hr e (List.mem_cons_self ..)
    cases e with
    | enter n onEnter st other =>
      cases ins with
      | true => cases r <;> simp [History] at hh
      | false =>
        have hcur := hi rfl
        subst hcur
        obtain ⟨hq0, hc0⟩ := agree_none s ha
        have hp : persona s other = (s, if other = some true then [.mode] else []) := by
          cases other with
          | none => rfl
          | some t => cases t <;> (unfold persona queuePrint; cases s; simp_all)
        have hh' : History true r := by simpa [History] using hh
        have hen : ∃ s', enter c s n onEnter st = some s' ∧ Agree s' (n.map fun k => (k, if onEnter then some st else none)) := by
          cases n with
          | none => exact ⟨_, rfl, rfl, by simp, ha.staged, by simp [hq0], by simp⟩
          | some n =>
            cases onEnter with
            | false => exact ⟨_, rfl, rfl, by simp, by simp [ha.staged, hc], by simp [hq0], by simp⟩
            | true =>
              refine ⟨{ s with inside := true, call := some n, staged := s.staged || !c.complete, queue := st.map sprintEntry }, ?_, rfl, by simp,
                by simp [ha.staged, hc], ?_, ?_⟩
              · unfold enter tcbCapture; simp [hq0]
              · simp only [Option.map_some, if_true, Option.bind_some, Option.getD_some]
                exact List.map_congr_left fun x hx => sprintEntry_eq x (he.2 x hx).1 (he.2 x hx).2
              · intro k st' hk
                simp only [Option.map_some, if_true, Option.some.injEq, Prod.mk.injEq] at hk
                rw [← hk.2]; exact he.1 rfl
        obtain ⟨s', hs1, ha'⟩ := hen
        have := ih s' _ true ha' hh' (by simp) hr' hs' hq'
        unfold run expected
        unfold step
        dsimp only
        rw [hp]
        dsimp only
        rw [hs1]
        simp only [Option.map_some]
        rw [this]
    | leave f st =>
      cases ins with
      | false => cases r <;> simp [History] at hh
      | true =>
        have hh' : History false r := by simpa [History] using hh
        unfold run expected
        simp only [step]
        cases cur with
        | none =>
          obtain ⟨hq0, hc0⟩ := agree_none s ha
          have hl : leave c s f st = ({ s with inside := false }, []) := by unfold leave; rw [hc0]
          rw [hl]
          dsimp only
          rw [ih { s with inside := false } none false ⟨hc0, by simp, ha.staged, hq0, by simp⟩ hh' (fun _ => rfl) hr' hs' hq']
          rfl
        | some k =>
          obtain ⟨n, cap⟩ := k
          have hcall : s.call = some n := ha.call
          obtain ⟨f, rfl⟩ : ∃ f', f = some f' := by
            cases f with
            | none => exact absurd rfl hre
            | some f => exact ⟨f, rfl⟩
          have hl : leave c s (some f) st = ({ s with inside := false, call := none, staged := false, queue := [] }, .call n :: stackOf cap st) := by
            unfold leave
            rw [hcall]
            dsimp only
            rw [if_pos (complete_publish c hc _)]
            cases cap with
            | none => rw [print_direct _ (by simpa using ha.queue) st he]; have := ha.queue; simp at this; rw [this]
            | some cs => rw [print_queue _ cs (ha.nonempty n cs rfl) (by simpa using ha.queue) st]
          rw [hl]
          dsimp only
          rw [ih _ none false ⟨rfl, by simp, rfl, rfl, by simp⟩ hh' (fun _ => rfl) hr' hs' hq']
          rfl
    | signal n st =>
      cases ins with
      | true => cases r <;> simp [History] at hh
      | false =>
        have hcur := hi rfl
        subst hcur
        have hh' : History false r := by simpa [History] using hh
        unfold run expected
        simp only [step]
        rw [print_direct s (agree_none s ha).1 st he]
        dsimp only
        rw [ih _ none false ha hh' (fun _ => rfl) hr' hs' hq']
    | exiting =>
      have hx : r = [.exited] := by
        cases r with
        | nil => cases ins <;> simp [History] at hh
        | cons a b => cases ins <;> cases a <;> cases b <;> simp_all [History]
      subst hx
      have ht : c.tellExit = false := by
        rcases hq with h | h
        · exact h
        · simp at h
      unfold run expected
      simp only [step]
      unfold run
      simp only [step]
      cases cur with
      | none =>
        obtain ⟨hq0, hc0⟩ := agree_none s ha
        have hl : eventExit c s = (s, []) := by unfold eventExit; rw [hc0]
        rw [hl]
        dsimp only
        rw [last s none ha ht]
        simp [run, expected, ht]
      | some k =>
        obtain ⟨n, cap⟩ := k
        have hcall : s.call = some n := ha.call
        have hl : eventExit c s = ({ s with call := none, staged := false }, [.call n]) := by
          unfold eventExit
          rw [hcall]
          dsimp only
          rw [if_pos (ha.inside (by simp)), hc]
          rfl
        rw [hl]
        dsimp only
        unfold exited queuePrint
        dsimp only
        rw [ha.queue]
        cases cap with
        | none => simp [run, expected, ht, stackOf]
        | some cs => simp [run, expected, ht, stackOf]
    | exited =>
      have hx : r = [] := by
        cases r with
        | nil => rfl
        | cons a b => cases ins <;> cases a <;> cases b <;> simp_all [History]
      subst hx
      have ht : c.tellExit = false := by
        rcases hq with h | h
        · exact h
        · simp at h
      unfold run expected
      simp only [step]
      rw [last s cur ha ht]
      simp [run, expected, ht]

/-! ### What the full claim lacks -/

/-- a frame -/
def fr (n : Nat) : Entry := .call ⟨some (codes "a.out"), some (codes "main"), n, n, none, 0⟩

/-- only successful calls are shown: -z -/
def onlyGood : Cfg := ⟨true, false, false, false, false, true⟩

/-- all calls are shown -/
def allCalls : Cfg := ⟨true, true, true, true, true, true⟩

/-- With -k and -z a program that tries two places for a program it wants to run (execvp) ends strace with a message about a bug: the stack of
the first execve, which is not shown, is still waiting when the second begins. -/
theorem stacks_fatal : ∃ h : List Ev, History false h ∧ (∀ e ∈ h, Readable e) ∧ (∀ e ∈ h, Stacks e) ∧ (run onlyGood start h).2 = true := by
  refine ⟨[.enter (some 1) true [fr 1] none, .leave (some true) [fr 1], .enter (some 2) true [fr 2] none], ?_, ?_, ?_, by decide +kernel⟩
  · simp [History]
  · simp [Readable]
  · simp [Stacks, Known, Named, fr]; decide

/-- With -k and -z the stack of a call that is not shown follows the next line. -/
theorem stacks_stale : ∃ h : List Ev, History false h ∧ (∀ e ∈ h, Readable e) ∧ (∀ e ∈ h, Stacks e) ∧
    run onlyGood start h = ([.call 2, .frame (frameLine (fr 1))], false) ∧
    h = [.enter (some 1) true [fr 1] none, .leave (some true) [fr 1], .enter (some 2) false [] none, .leave (some false) [fr 2]] := by
  refine ⟨_, ?_, ?_, ?_, ?_, rfl⟩
  · simp [History]
  · simp [Readable]
  · simp [Stacks, Known, Named, fr]; decide
  · decide +kernel

/-- With all calls shown the stack of exit_group comes after the line that says that the process exited. -/
theorem stacks_exit_late (n : Nat) (st : List Entry) (hst : ∀ e ∈ st, Known e ∧ Named e) (hne : st ≠ []) :
    run allCalls start [.enter (some n) true st none, .exiting, .exited] =
      (.call n :: .ended :: stackOf none st, false) := by
  have hm : st.map sprintEntry = st.map frameLine :=
    List.map_congr_left fun x hx => sprintEntry_eq x (hst x hx).1 (hst x hx).2
  have h1 : st.map sprintEntry ≠ [] := by simpa using hne
  simp only [run, step, persona, enter, tcbCapture, start, eventExit, exited, queuePrint, allCalls, Cfg.complete, stackOf]
  simp [hm]

/-- A function without a name (libunwind: an empty one) is shown in one way after most calls and in another after execve and exit. -/
theorem unnamed_differs : ∃ e : Entry, Known e ∧ printEntry e = codes " > a.out() [0x10]\n" ∧ sprintEntry e = codes " > a.out(+0x0) [0x10]\n" :=
  ⟨.call ⟨some (codes "a.out"), some [], 0, 16, none, 0⟩, by simp [Known], by decide +kernel, by decide +kernel⟩

/-- If nothing of a stack could be taken on entering, the one on leaving is shown: after execve, that of the new program. -/
theorem stacks_empty_wrong : ∃ h : List Ev, History false h ∧ run allCalls start h ≠ (expected true none h, false) ∧
    h = [.enter (some 1) true [] none, .leave (some false) [fr 7]] :=
  ⟨_, by simp [History], by decide +kernel, rfl⟩

/-- the hypotheses are met by a process that runs another program, gets a signal and exits -/
example : History false [.enter (some 1) true [fr 1] none, .leave (some false) [fr 2], .enter (some 2) false [] (some true), .leave (some true) [fr 3],
      .signal 17 [fr 4], .enter (some 3) true [fr 5] none, .exiting, .exited] ∧
    run { allCalls with tellExit := false } start [.enter (some 1) true [fr 1] none, .leave (some false) [fr 2],
      .enter (some 2) false [] (some true), .leave (some true) [fr 3], .signal 17 [fr 4], .enter (some 3) true [fr 5] none, .exiting, .exited] =
    ([.call 1, .frame (frameLine (fr 1)), .mode, .call 2, .frame (frameLine (fr 3)), .sig 17, .frame (frameLine (fr 4)),
      .call 3, .frame (frameLine (fr 5))], false) ∧
    frameLine (fr 1) = codes " > a.out(main+0x1) [0x1]\n" := by
  refine ⟨by simp [History], by decide +kernel, by decide +kernel⟩

end Strace.Unwind
