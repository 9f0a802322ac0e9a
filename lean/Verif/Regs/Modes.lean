import Verif.Regs.Props
/-!
# The messages about modes say what mode a tracee is in
-/
namespace Strace.Regs

open Strace.Result (Pers)
open Strace.Regs.Spec

theorem told_append (pid : Nat) (l1 l2 : List Line) : ∀ p : Pers, told pid p (l1 ++ l2) = told pid (told pid p l1) l2 := by
  induction l1 with
  | nil => intro p; rfl
  | cons x l1 ih =>
    intro p
    cases x <;> exact ih _

theorem told_unf (pid : Nat) (p : Pers) (l : List Line) (h : ∀ x ∈ l, isUnf x = true) : told pid p l = p := by
  induction l generalizing p with
  | nil => rfl
  | cons x l ih =>
    have hx := h x (List.mem_cons_self ..)
    have hl := ih (p := p) (fun y hy => h y (List.mem_cons_of_mem _ hy))
    cases x <;> simp_all [isUnf, told]

/-- A log in which the mode of each line is the one told before, and no message tells what has been told. -/
def Clear (out : List Line) : Prop :=
  ∀ (a b : List Line) (x : Line), out = a ++ x :: b →
    (∀ (pid : Nat) (p : Pers), lineMode x = some (pid, p) → told pid .x64 a = p) ∧
    (∀ (pid : Nat) (p : Pers), x = .mode pid p → told pid .x64 a ≠ p)

/-- One more line. -/
theorem Clear.snoc {out : List Line} (h : Clear out) (x : Line)
    (h1 : ∀ (pid : Nat) (p : Pers), lineMode x = some (pid, p) → told pid .x64 out = p)
    (h2 : ∀ (pid : Nat) (p : Pers), x = .mode pid p → told pid .x64 out ≠ p) : Clear (out ++ [x]) := by
  intro a b y hy
  rcases List.eq_nil_or_concat b with rfl | ⟨b', z, rfl⟩
  · have hh := List.append_inj' hy rfl
    have hxy : x = y := by simpa using hh.2
    subst hxy
    rw [← hh.1]
    exact ⟨h1, h2⟩
  · have hy' : out ++ [x] = (a ++ y :: b') ++ [z] := by rw [hy]; simp
    have hh := List.append_inj' hy' rfl
    exact h a b' y hh.1

theorem Clear.unf {out l : List Line} (h : Clear out) (hl : ∀ x ∈ l, isUnf x = true) : Clear (out ++ l) := by
  induction l generalizing out with
  | nil => simpa using h
  | cons x l ih =>
    have hx := hl x (List.mem_cons_self ..)
    have h1 : Clear (out ++ [x]) := by
      apply h.snoc
      · intro pid p hm; cases x <;> simp_all [isUnf, lineMode]
      · intro pid p hm; subst hm; cases hx
    have := ih h1 (fun y hy => hl y (List.mem_cons_of_mem _ hy))
    simpa using this

/-- The log is clear, and tells the modes of the tracees that are there. -/
structure Tells (live : Nat → Bool) (s : St) : Prop where
  clear : Clear s.out
  now : ∀ q, live q = true → told q .x64 s.out = (s.tcbs q).currpers

theorem Tells.same {live : Nat → Bool} {s s' : St} (h : Tells live s) (hs : Same s s') : Tells live s' := by
  obtain ⟨l, hl, hx⟩ := hs.out
  constructor
  · rw [hl]; exact h.clear.unf hx
  · intro q hq
    rw [hl, told_append, told_unf q _ l hx, hs.currpers]
    exact h.now q hq

theorem Tells.congr {live : Nat → Bool} {s s' : St} (h : Tells live s) (ho : s'.out = s.out)
    (hc : ∀ q, (s'.tcbs q).currpers = (s.tcbs q).currpers) : Tells live s' :=
  ⟨by rw [ho]; exact h.clear, fun q hq => by rw [ho, hc]; exact h.now q hq⟩

theorem Tells.took {E : Env} {live : Nat → Bool} {s s' : St} {pid : Nat} {p : Pers} (h : Tells live s)
    (hE : E.quiet = false) (hlive : live pid = true) (ht : Took E s s' pid p) : Tells live s' := by
  obtain ⟨l, hx, hl⟩ := ht.out
  by_cases hp : p = (s.tcbs pid).currpers
  · rw [if_pos (Or.inl hp), List.append_nil] at hl
    apply h.congr hl
    intro q
    rw [ht.currpers]
    by_cases hq : q = pid
    · rw [if_pos hq, hq, hp]
    · rw [if_neg hq]
  · rw [if_neg (by rintro (hh | hh); exact hp hh; rw [hE] at hh; cases hh), ← List.append_assoc] at hl
    have hc1 : Clear (s.out ++ l) := h.clear.unf hx
    have ht1 : ∀ q, told q .x64 (s.out ++ l) = told q .x64 s.out := by
      intro q; rw [told_append, told_unf q _ l hx]
    constructor
    · rw [hl]
      apply hc1.snoc
      · intro q m hm; simp [lineMode] at hm
      · intro q m hm
        injection hm with h1 h2
        subst h1; subst h2
        rw [ht1, h.now _ hlive]
        exact fun hh => hp hh.symm
    · intro q hq
      rw [hl, told_append, ht1, ht.currpers]
      by_cases hqp : q = pid
      · subst hqp; simp [told]
      · rw [if_neg hqp]
        simp only [told]
        rw [if_neg (fun hh => hqp hh.symm)]
        exact h.now q hq

theorem Tells.emit {live : Nat → Bool} {s : St} (h : Tells live s) (x : Line)
    (h1 : ∀ (pid : Nat) (p : Pers), lineMode x = some (pid, p) → told pid .x64 s.out = p)
    (h2 : ∀ (pid : Nat) (p : Pers), x ≠ .mode pid p) (h3 : ∀ (pid : Nat) (p : Pers), x ≠ .new pid p) :
    Tells live (emit s x) := by
  constructor
  · exact h.clear.snoc x h1 (fun pid p hm => absurd hm (h2 pid p))
  · intro q hq
    show Spec.told q .x64 (s.out ++ [x]) = _
    rw [told_append]
    have hx : ∀ p : Pers, Spec.told q p [x] = p := by
      intro p
      cases x with
      | new pid m => exact absurd rfl (h3 pid m)
      | mode pid m => exact absurd rfl (h2 pid m)
      | _ => rfl
    rw [hx]
    exact h.now q hq

variable {E : Env} {live : Nat → Bool} {s : St}

theorem tells_getInfo (hE : E.quiet = false) (k : Kern) (pid : Nat) (hl : live pid = true) (h : Tells live s) :
    Tells live (getInfo E s k pid).1 := by
  unfold getInfo
  split
  · exact h
  · split
    · exact h.congr rfl fun _ => rfl
    · split
      · rename_i i _ _ p _
        have h' : Tells live { s with sci := some i } := h.congr rfl fun _ => rfl
        exact h'.took hE hl (update_took E _ pid p)
      · exact h.congr rfl fun _ => rfl

theorem tells_regs (k : Kern) (h : Tells live s) : Tells live (getRegs s k).1 :=
  h.congr (getRegs_any s k).out fun q => by rw [(getRegs_any s k).tcbs]

theorem tells_getSyscallRegs (hE : E.quiet = false) (k : Kern) (pid : Nat) (hl : live pid = true) (h : Tells live s) :
    Tells live (getSyscallRegs E s k pid).1 := by
  unfold getSyscallRegs
  split
  · exact h
  · split
    · split
      · exact tells_getInfo hE k pid hl h
      · split
        · exact tells_getInfo hE k pid hl h
        · exact tells_regs k (tells_getInfo hE k pid hl h)
    · exact tells_regs k h

theorem tells_getScno (hE : E.quiet = false) (k : Kern) (pid : Nat) (hl : live pid = true) (h : Tells live s) :
    Tells live (getScno E s k pid).1 := by
  unfold getScno
  dsimp only
  split
  · exact tells_getSyscallRegs hE k pid hl h
  · split
    · exact tells_getSyscallRegs hE k pid hl h
    · exact (tells_getSyscallRegs hE k pid hl h).took hE hl (update_took E _ pid _)

theorem tells_nextEvent (hE : E.quiet = false) (k : Kern) (pid : Nat) (hl : live pid = true) (h : Tells live s) :
    Tells live (nextEvent E s k pid) := by
  unfold nextEvent
  have h0 : Tells live (clearRegs s) := h.congr rfl fun _ => rfl
  have h1 : Tells live (startup E (clearRegs s) k pid) := by
    unfold startup
    split
    · dsimp only
      have h2 : Tells live (upd (clearRegs s) pid fun t => { t with startup := false }) :=
        h0.congr rfl fun q => by simp only [upd]; split <;> rfl
      split
      · exact tells_getScno hE k pid hl h2
      · exact h2
    · exact h0
  exact h1.same (setCurrent_same _ pid)

theorem tells_upd (pid : Nat) (f : Tcb → Tcb) (hf : ∀ t, (f t).currpers = t.currpers) (h : Tells live s) :
    Tells live (upd s pid f) :=
  h.congr rfl fun q => by
    simp only [upd]
    split
    · exact hf _
    · rfl

theorem tells_entering (hE : E.quiet = false) (k : Kern) (pid : Nat) (hl : live pid = true) (h : Tells live s) :
    Tells live (entering E s k pid) := by
  have h1 : Tells live (getScno E s k pid).1 := tells_getScno hE k pid hl h
  have h2 : Tells live (printleader E (getScno E s k pid).1 pid) := h1.same (printleader_same E _ pid)
  unfold entering
  dsimp only
  apply tells_upd
  · intro t; rfl
  · split
    · exact h2.emit _ (by intro q p hm; simp [lineMode] at hm) (by intro q p hm; cases hm) (by intro q p hm; cases hm)
    · refine h2.emit _ ?_ (by intro q p hm; cases hm) (by intro q p hm; cases hm)
      intro q p hm
      simp only [lineMode, Option.some.injEq, Prod.mk.injEq] at hm
      obtain ⟨rfl, rfl⟩ := hm
      rw [h2.now _ hl, printleader_pers]
      exact (printleader_same E _ _).currpers _

theorem getInfo_exit_pers (k : Kern) (pid : Nat) (h : s.pers = (s.tcbs pid).currpers) :
    (getInfo E s k pid).1.pers = ((getInfo E s k pid).1.tcbs pid).currpers := by
  unfold getInfo
  split
  · exact h
  · split
    · exact h
    · split
      · rename_i i _ _ p _
        have ht := update_took E { s with sci := some i } pid p
        show (updatePersonality E { s with sci := some i } pid p).pers = _
        rw [ht.pers]
        show p = ((updatePersonality E { s with sci := some i } pid p).tcbs pid).currpers
        rw [ht.currpers, if_pos rfl]
      · exact h

theorem getSyscallRegs_pers (k : Kern) (pid : Nat) (h : s.pers = (s.tcbs pid).currpers) :
    (getSyscallRegs E s k pid).1.pers = ((getSyscallRegs E s k pid).1.tcbs pid).currpers := by
  have hr : ∀ s : St, s.pers = (s.tcbs pid).currpers → (getRegs s k).1.pers = ((getRegs s k).1.tcbs pid).currpers := by
    intro s hs
    rw [(getRegs_any s k).pers, (getRegs_any s k).tcbs]; exact hs
  unfold getSyscallRegs
  split
  · exact h
  · split
    · split
      · exact getInfo_exit_pers k pid h
      · split
        · exact getInfo_exit_pers k pid h
        · exact hr _ (getInfo_exit_pers k pid h)
    · exact hr s h

theorem tells_exiting (hE : E.quiet = false) (k : Kern) (pid : Nat) (hl : live pid = true) (h : Tells live s) :
    Tells live (exiting E s k pid) := by
  have ht := update_took E s pid (s.tcbs pid).currpers
  have h1 : Tells live (updatePersonality E s pid (s.tcbs pid).currpers) := h.took hE hl ht
  have hp1 : (updatePersonality E s pid (s.tcbs pid).currpers).pers =
      ((updatePersonality E s pid (s.tcbs pid).currpers).tcbs pid).currpers := by
    rw [ht.pers, ht.currpers, if_pos rfl]
  unfold exiting
  dsimp only
  generalize updatePersonality E s pid (s.tcbs pid).currpers = s1 at h1 hp1
  have h2 : Tells live (getSyscallRegs E s1 k pid).1 := tells_getSyscallRegs hE k pid hl h1
  have hp2 := getSyscallRegs_pers (E := E) k pid hp1
  generalize (getSyscallRegs E s1 k pid).2 = rc
  generalize (getSyscallRegs E s1 k pid).1 = s2 at h2 hp2
  have hsame : Same s2 (printResume E s2 pid) := by
    unfold printResume
    split
    · have h1 := (printleader_same E s2 pid).trans (setMid_same (printleader E s2 pid) pid true)
      exact ⟨h1.sci, h1.regsErr, h1.useOld, h1.iov, h1.mem, h1.currpers, h1.insys, h1.startup, h1.grabbed, h1.out⟩
    · exact ⟨rfl, rfl, rfl, rfl, rfl, fun _ => rfl, fun _ => rfl, fun _ => rfl, fun _ => rfl, [], by simp, by simp⟩
  have hpers : (printResume E s2 pid).pers = (s2.tcbs pid).currpers := by
    unfold printResume
    split
    · exact printleader_pers E s2 pid
    · exact hp2
  have h3 : Tells live (printResume E s2 pid) := h2.same hsame
  apply tells_upd
  · intro t; rfl
  · refine Tells.same ?_ (lineEnded_same _)
    apply h3.emit
    · intro q p hm
      by_cases hr : rc < 0
      · rw [if_pos hr] at hm; simp [lineMode] at hm
      · rw [if_neg hr] at hm
        simp only [lineMode, Option.some.injEq, Prod.mk.injEq] at hm
        obtain ⟨rfl, rfl⟩ := hm
        rw [h3.now _ hl, hpers]
        exact hsame.currpers _
    · intro q p hm
      split at hm <;> cases hm
    · intro q p hm
      split at hm <;> cases hm

theorem run_tells (hE : E.quiet = false) (evs : List Ev) : ∀ (live : Nat → Bool) (s : St), Present live evs → Tells live s →
    Clear (run E s evs).out := by
  induction evs with
  | nil => intro live s _ h; exact h.clear
  | cons e es ih =>
    intro live s hp h
    cases e with
    | new pid g =>
      refine ih _ _ hp ⟨?_, ?_⟩
      · exact h.clear.snoc (.new pid s.pers) (by intro q p hm; simp [lineMode] at hm) (by intro q p hm; cases hm)
      · intro q hq
        show told q .x64 (s.out ++ [Line.new pid s.pers]) = (if q = pid then _ else s.tcbs q).currpers
        rw [told_append]
        by_cases hqp : q = pid
        · rw [if_pos hqp]; simp [told, hqp]
        · rw [if_neg hqp] at hq ⊢
          simp only [told]
          rw [if_neg (fun hh => hqp hh.symm)]
          exact h.now q hq
    | drop pid =>
      refine ih _ _ hp ⟨h.clear, ?_⟩
      intro q hq
      show told q .x64 s.out = (if q = pid then _ else s.tcbs q).currpers
      by_cases hqp : q = pid
      · rw [if_pos hqp] at hq; cases hq
      · rw [if_neg hqp] at hq ⊢
        exact h.now q hq
    | sys pid k =>
      refine ih live _ hp.2 ?_
      have h1 := tells_nextEvent hE k pid hp.1 h
      show Tells live (if ((nextEvent E s k pid).tcbs pid).insys then _ else _)
      split
      · exact tells_exiting hE k pid hp.1 h1
      · exact tells_entering hE k pid hp.1 h1
    | other pid k shown =>
      refine ih live _ hp.2 ?_
      have h1 := tells_nextEvent hE k pid hp.1 h
      cases shown
      · exact h1
      · have h2 : Tells live (printleader E (nextEvent E s k pid) pid) := h1.same (printleader_same E _ pid)
        show Tells live (lineEnded (emit (printleader E (nextEvent E s k pid) pid)
          (.other pid (printleader E (nextEvent E s k pid) pid).pers)))
        refine Tells.same ?_ (lineEnded_same _)
        refine h2.emit _ ?_ (by intro q p hm; cases hm) (by intro q p hm; cases hm)
        intro q p hm
        simp only [lineMode, Option.some.injEq, Prod.mk.injEq] at hm
        obtain ⟨rfl, rfl⟩ := hm
        rw [h2.now _ hp.1, printleader_pers]
        exact (printleader_same E _ _).currpers _

/-- **C95.** Unless --quiet=personality is given, whatever happens and whatever the kernel answers: a line about a call, a
result or a stop has been shown in the mode that the last message about its tracee told (the mode the tracee was given when
it appeared, if there is none), and every message tells a mode other than the one told before. -/
theorem modes_told (E : Env) (hE : E.quiet = false) (evs : List Ev) (hp : Present (fun _ => false) evs)
    (a b : List Line) (x : Line) (h : (run E start evs).out = a ++ x :: b) :
    (∀ (pid : Nat) (p : Pers), lineMode x = some (pid, p) → told pid .x64 a = p) ∧
    (∀ (pid : Nat) (p : Pers), x = .mode pid p → told pid .x64 a ≠ p) :=
  run_tells hE evs (fun _ => false) start hp
    ⟨by intro a b x hx; simp [start] at hx, fun q hq => by cases hq⟩ a b x h

end Strace.Regs
