import Verif.Detach.Model
import Verif.Ev.Props
/-!
# C31: detaching leaves no trace on the tracee
-/
namespace Strace.Detach
open Ev (Stop wifstopped wstopsig)

/-! ### Specification: what ptrace(2) says about the requests -/

/-- the signals a tracee gets when a stop is left with signal `x`: a signal can be injected in a signal-delivery-stop
and in a syscall stop, elsewhere it is ignored -/
def injected : Stop → Nat → List Nat
  | .signal _, x => if x = 0 then [] else [x]
  | .syscall, x => if x = 0 then [] else [x]
  | _, _ => []

/-- the signals a tracee gets from the requests made in its stops -/
def delivered : List (Stop × Option Req) → List Nat
  | [] => []
  | (s, some (.detach x)) :: l => injected s x ++ delivered l
  | (s, some (.cont x)) :: l => injected s x ++ delivered l
  | _ :: l => delivered l

/-- the signals that are about to be delivered -/
def signals : List Stop → List Nat
  | [] => []
  | .signal x :: l => x :: signals l
  | _ :: l => signals l

def dead : Stop → Prop
  | .exited _ => True
  | .killed _ _ => True
  | _ => False

/-- the stop is reported as SIGSTOP, without PTRACE_SEIZE -/
def sigstop (s : Stop) : Prop := s = .signal 19 ∨ s = .group 19

/-- the tracee is let go in its last stop -/
def letGo (l : List (Stop × Option Req)) : Prop := ∃ s x pre, l = pre ++ [(s, some (.detach x))]

/-! ### One stop -/

theorem stopped_iff (seize : Bool) (s : Stop) (h : s.ok) : wifstopped (s.status seize) = true ↔ ¬ dead s := by
  rw [wifstopped, decide_eq_true_eq]
  cases s with
  | killed sig core =>
    obtain ⟨h1, h2⟩ : 0 < sig ∧ sig ≤ 64 := h
    simp only [Stop.status, dead, not_true, iff_false]
    split <;> omega
  | exited code =>
    simp only [Stop.status, dead, not_true, iff_false]
    omega
  | signal sig => simp only [Stop.status, dead, not_false_iff, iff_true]; omega
  | group sig => simp only [Stop.status, dead, not_false_iff, iff_true]; split <;> omega
  | child ev => simp only [Stop.status, dead, not_false_iff, iff_true]; omega
  | syscall => simp [Stop.status, dead]
  | trap => simp [Stop.status, dead]
  | exec => simp [Stop.status, dead]
  | exitEv => simp [Stop.status, dead]
  | seccomp => simp [Stop.status, dead]

theorem onStop_dead (seize : Bool) (s : Stop) (h : s.ok) (hd : dead s) : onStop seize (s.status seize) = (none, true) := by
  have : wifstopped (s.status seize) = false := by
    rw [Bool.eq_false_iff]
    intro hc
    exact (stopped_iff seize s h).mp hc hd
  rw [onStop, if_pos this]

theorem onStop_seize (s : Stop) (h : s.ok) (hd : ¬ dead s) :
    ∃ x, onStop true (s.status true) = (some (.detach x), true) ∧ injected s x = signals [s] := by
  have hw : ¬ wifstopped (s.status true) = false := by
    rw [(stopped_iff true s h).mpr hd]; simp
  rw [onStop, if_neg hw, if_pos rfl]
  refine ⟨_, rfl, ?_⟩
  cases s with
  | signal sig =>
    obtain ⟨h1, h2⟩ : 0 < sig ∧ sig ≤ 64 := h
    have e1 : Stop.status true (.signal sig) / 65536 = 0 := by simp only [Stop.status]; omega
    have e2 : wstopsig (Stop.status true (.signal sig)) = sig := by simp only [wstopsig, Stop.status]; omega
    rw [e1, e2, sigFor, if_neg (by simp), if_neg (by omega)]
    simp only [injected, signals]
    rw [if_neg (by omega)]
  | syscall => decide
  | exited => exact absurd trivial hd
  | killed => exact absurd trivial hd
  | group => rfl
  | trap => rfl
  | exec => rfl
  | exitEv => rfl
  | seccomp => rfl
  | child => rfl

theorem onStop_sigstop (s : Stop) (hs : sigstop s) : onStop false (s.status false) = (some (.detach 0), true) := by
  rcases hs with e | e <;> subst e <;> decide

theorem onStop_other (s : Stop) (h : s.ok) (hd : ¬ dead s) (hs : ¬ sigstop s) :
    ∃ x, onStop false (s.status false) = (some (.cont x), false) ∧ injected s x = signals [s] := by
  have hw : ¬ wifstopped (s.status false) = false := by
    rw [(stopped_iff false s h).mpr hd]; simp
  have hsig : ¬ wstopsig (s.status false) = 19 := by
    cases s with
    | signal sig =>
      obtain ⟨h1, h2⟩ : 0 < sig ∧ sig ≤ 64 := h
      have e2 : wstopsig (Stop.status false (.signal sig)) = sig := by simp only [wstopsig, Stop.status]; omega
      rw [e2]
      intro e
      exact hs (Or.inl (by rw [e]))
    | group sig =>
      have h1 : sig = 19 ∨ sig = 20 ∨ sig = 21 ∨ sig = 22 := h
      rcases h1 with e | e | e | e
      · exact absurd (Or.inr (by rw [e])) hs
      · subst e; decide
      · subst e; decide
      · subst e; decide
    | child ev =>
      have h1 : ev = 1 ∨ ev = 2 ∨ ev = 3 ∨ ev = 5 := h
      rcases h1 with e | e | e | e <;> subst e <;> decide
    | exited => exact absurd trivial hd
    | killed => exact absurd trivial hd
    | syscall => decide
    | trap => decide
    | exec => decide
    | exitEv => decide
    | seccomp => decide
  rw [onStop, if_neg hw, if_neg (by simp), if_neg hsig]
  refine ⟨_, rfl, ?_⟩
  cases s with
  | signal sig =>
    obtain ⟨h1, h2⟩ : 0 < sig ∧ sig ≤ 64 := h
    have e2 : wstopsig (Stop.status false (.signal sig)) = sig := by simp only [wstopsig, Stop.status]; omega
    rw [e2, sigFor, if_neg (by simp), if_neg (by omega)]
    simp only [injected, signals]
    rw [if_neg (by omega)]
  | syscall => decide
  | exited => exact absurd trivial hd
  | killed => exact absurd trivial hd
  | group => rfl
  | trap => rfl
  | exec => rfl
  | exitEv => rfl
  | seccomp => rfl
  | child => rfl

/-! ### A tracee -/

/-- a running tracee -/
def running (t : Tracee) : Prop := t.attached = true ∧ t.ignore = false ∧ t.alive = true ∧ t.stop = none

theorem start_running (seize : Bool) (t : Tracee) (h : running t) :
    start seize t = (if seize = true then ([.interrupt], true) else ([.kill 19], true)) := by
  obtain ⟨h1, h2, h3, h4⟩ := h
  rw [start, if_neg (by simp [h1]), if_neg (by simp [h2]), if_neg (by simp [h3]), if_neg (by simp [h4])]

/-- C31, with PTRACE_SEIZE: no SIGSTOP is sent; a running tracee is let go in the first stop it comes to, and if that
is the delivery of a signal, the signal is delivered; if it has died, nothing is asked of it -/
theorem seized_detach (t : Tracee) (ht : running t) (s : Stop) (rest : List Stop) (hs : s.ok) :
    ∃ r, detach true t (s :: rest) = ([.interrupt], [(s, r)], .done) ∧ delivered [(s, r)] = signals [s] ∧
      (dead s ∧ r = none ∨ ¬ dead s ∧ letGo [(s, r)]) := by
  have h0 : start true t = ([.interrupt], true) := by rw [start_running true t ht]; rfl
  by_cases hd : dead s
  · have e := onStop_dead true s hs hd
    refine ⟨none, ?_, ?_, Or.inl ⟨hd, rfl⟩⟩
    · simp [detach, h0, waitLoop, e]
    · cases s <;> first | rfl | exact absurd hd (by simp [dead])
  · obtain ⟨x, e, hx⟩ := onStop_seize s hs hd
    refine ⟨some (.detach x), ?_, ?_, Or.inr ⟨hd, s, x, [], rfl⟩⟩
    · simp [detach, h0, waitLoop, e]
    · simp [delivered, hx]

/-- what happens while strace waits for its SIGSTOP -/
theorem waitLoop_pre (pre l : List Stop) (hp : ∀ s ∈ pre, s.ok ∧ ¬ dead s ∧ ¬ sigstop s) :
    ∃ rs, (waitLoop false (pre ++ l)).1 = rs ++ (waitLoop false l).1 ∧
      (waitLoop false (pre ++ l)).2 = (waitLoop false l).2 ∧ rs.map (·.1) = pre ∧
      (∀ m, delivered (rs ++ m) = signals pre ++ delivered m) ∧ ∀ r ∈ rs, ∃ x, r.2 = some (.cont x) := by
  induction pre with
  | nil => exact ⟨[], by simp, by simp, rfl, by simp [signals], by simp⟩
  | cons s pre ih =>
    obtain ⟨rs, e1, e2, e3, e4, e5⟩ := ih (fun s hs => hp s (List.mem_cons_of_mem _ hs))
    obtain ⟨h1, h2, h3⟩ := hp s List.mem_cons_self
    obtain ⟨x, e, hx⟩ := onStop_other s h1 h2 h3
    refine ⟨(s, some (.cont x)) :: rs, ?_, ?_, by simp [e3], ?_, ?_⟩
    · simp [waitLoop, e, e1]
    · simp [waitLoop, e, e2]
    · intro m
      have hc : signals (s :: pre) = signals [s] ++ signals pre := by cases s <;> simp [signals]
      rw [hc, List.append_assoc, ← e4 m, ← hx]
      rfl
    · intro r hr
      rcases List.mem_cons.mp hr with hr | hr
      · exact ⟨x, by rw [hr]⟩
      · exact e5 r hr

/-- C31, without PTRACE_SEIZE: to a running tracee, and to one whose attach SIGSTOP has not been seen, every signal
is delivered until a SIGSTOP is seen; that one is suppressed and the tracee let go.  Exactly one SIGSTOP is sent for
the one that is suppressed, either now or when attaching. -/
theorem unseized_detach (t : Tracee) (ht : running t ∨ t.attached = true ∧ t.ignore = true) (pre : List Stop) (s : Stop)
    (rest : List Stop) (hp : ∀ s ∈ pre, s.ok ∧ ¬ dead s ∧ ¬ sigstop s) (hs : sigstop s) :
    ∃ rs, detach false t (pre ++ s :: rest) = (if t.ignore = true then [] else [.kill 19], rs, .done) ∧
      rs.map (·.1) = pre ++ [s] ∧ delivered rs = signals pre ∧ letGo rs := by
  have h0 : start false t = (if t.ignore = true then [] else [.kill 19], true) := by
    rcases ht with ht | ht
    · rw [start_running false t ht, if_neg (by simp), ht.2.1]; rfl
    · rw [start, if_neg (by simp [ht.1]), if_pos ht.2, if_pos ht.2]
  obtain ⟨rs, e1, e2, e3, e4, e5⟩ := waitLoop_pre pre (s :: rest) hp
  have e := onStop_sigstop s hs
  have hw : waitLoop false (s :: rest) = ([(s, some (.detach 0))], true) := by simp [waitLoop, e]
  rw [hw] at e1 e2
  refine ⟨rs ++ [(s, some (.detach 0))], ?_, by simp [e3], ?_, ⟨s, 0, rs, rfl⟩⟩
  · simp [detach, h0, e1, e2]
  · rw [e4]
    rcases hs with hs | hs <;> subst hs <;> simp [delivered, injected]

/-- C31: if the tracee dies instead, strace does not wait on, and all signals up to then were delivered -/
theorem unseized_death (t : Tracee) (ht : running t ∨ t.attached = true ∧ t.ignore = true) (pre : List Stop) (s : Stop)
    (rest : List Stop) (hp : ∀ s ∈ pre, s.ok ∧ ¬ dead s ∧ ¬ sigstop s) (hs : s.ok) (hd : dead s) :
    ∃ reqs rs, detach false t (pre ++ s :: rest) = (reqs, rs, .done) ∧ rs.map (·.1) = pre ++ [s] ∧
      delivered rs = signals pre := by
  have h0 : (start false t).2 = true := by
    rcases ht with ht | ht
    · rw [start_running false t ht, if_neg (by simp)]
    · rw [start, if_neg (by simp [ht.1]), if_pos ht.2]
  obtain ⟨rs, e1, e2, e3, e4, e5⟩ := waitLoop_pre pre (s :: rest) hp
  have e := onStop_dead false s hs hd
  have hw : waitLoop false (s :: rest) = ([(s, none)], true) := by simp [waitLoop, e]
  rw [hw] at e1 e2
  refine ⟨(start false t).1, rs ++ [(s, none)], ?_, by simp [e3], ?_⟩
  · simp [detach, h0, e1, e2]
  · rw [e4]
    cases s <;> simp [delivered]

/-- C31: a tracee that is in a stop is let go at once, with no signal; nothing is lost unless the stop is the delivery
of a signal -/
theorem stopped_detach_partial (seize : Bool) (t : Tracee) (l : List Stop) (s : Stop) (h1 : t.attached = true)
    (h2 : t.ignore = false) (h3 : t.alive = true) (h4 : t.stop = some s) :
    detach seize t l = ([.detach 0], [], .done) ∧ ((∀ x, s ≠ .signal x) → injected s 0 = signals [s]) := by
  constructor
  · have : start seize t = ([.detach 0], false) := by
      rw [start, if_neg (by simp [h1]), if_neg (by simp [h2]), if_neg (by simp [h3]), if_pos (by simp [h4])]
    simp [detach, this]
  · intro hx
    cases s <;> first | rfl | exact absurd rfl (hx _)

/-- C31: nothing is asked of a tracee that is not attached, and of one that has gone -/
theorem absent_detach (seize : Bool) (t : Tracee) (l : List Stop)
    (h : t.attached = false ∨ t.ignore = false ∧ t.alive = false) : detach seize t l = ([], [], .done) := by
  have : start seize t = ([], false) := by
    rcases h with h | h
    · rw [start, if_pos h]
    · by_cases ha : t.attached = false
      · rw [start, if_pos ha]
      · rw [start, if_neg ha, if_neg (by simp [h.1]), if_pos h.2]
  simp [detach, this]

/-- a running tracee comes to deliver SIGTERM while strace waits for the SIGSTOP it sent -/
example : running ⟨true, false, true, none⟩ ∧
    detach false ⟨true, false, true, none⟩ [.syscall, .signal 15, .signal 19, .signal 2] =
      ([.kill 19], [(.syscall, some (.cont 0)), (.signal 15, some (.cont 15)), (.signal 19, some (.detach 0))], .done) ∧
    detach true ⟨true, false, true, none⟩ [.signal 15, .trap] =
      ([.interrupt], [(.signal 15, some (.detach 15))], .done) := by
  refine ⟨⟨rfl, rfl, rfl, rfl⟩, ?_, ?_⟩ <;> decide

/-! ### All tracees -/

/-- the stops of one tracee -/
def stopsOf (p : Nat) (l : List (Nat × Stop)) : List Stop := (l.filter fun x => x.1 = p).map (·.2)

/-- what is asked of one tracee -/
def askedOf (p : Nat) (l : List (Nat × Stop × Option Req)) : List (Stop × Option Req) :=
  (l.filter fun x => x.1 = p).map (·.2)

theorem cleanLoop_spec (seize : Bool) (l : List (Nat × Stop)) : ∀ left : List Nat, left.Nodup →
    (∀ p, askedOf p (cleanLoop seize left left.length l).1 =
      if p ∈ left then (waitLoop seize (stopsOf p l)).1 else []) ∧
    ((cleanLoop seize left left.length l).2 = true ↔ ∀ p ∈ left, (waitLoop seize (stopsOf p l)).2 = true) := by
  induction l with
  | nil =>
    intro left _
    cases left with
    | nil => simp [cleanLoop, askedOf]
    | cons a left =>
      refine ⟨?_, ?_⟩
      · intro p
        simp [cleanLoop, askedOf, stopsOf, waitLoop]
      · simp only [cleanLoop, List.length_cons]
        constructor
        · intro h; simp at h
        · intro h
          have := h a List.mem_cons_self
          simp [stopsOf, waitLoop] at this
  | cons e l ih =>
    obtain ⟨q, s⟩ := e
    intro left hn
    have hne : ∀ p, p ≠ q → stopsOf p ((q, s) :: l) = stopsOf p l := by
      intro p hp
      have : ¬ q = p := fun h => hp h.symm
      simp [stopsOf, this]
    have heq : stopsOf q ((q, s) :: l) = s :: stopsOf q l := by simp [stopsOf]
    cases hl : left with
    | nil => simp [cleanLoop, askedOf]
    | cons a tl =>
      rw [← hl]
      have hlen : left.length = tl.length + 1 := by rw [hl]; rfl
      have hunf : cleanLoop seize left left.length ((q, s) :: l) =
          if q ∈ left then
            match onStop seize (s.status seize) with
            | (r, true) => ((q, s, r) :: (cleanLoop seize (left.erase q) tl.length l).1,
                (cleanLoop seize (left.erase q) tl.length l).2)
            | (r, false) => ((q, s, r) :: (cleanLoop seize left (tl.length + 1) l).1,
                (cleanLoop seize left (tl.length + 1) l).2)
          else cleanLoop seize left (tl.length + 1) l := by
        rw [hlen]; rfl
      rw [hunf]
      by_cases hq : q ∈ left
      · rw [if_pos hq]
        rcases hos : onStop seize (s.status seize) with ⟨r, b⟩
        cases b with
        | true =>
          dsimp only
          have hlen2 : tl.length = (left.erase q).length := by rw [List.length_erase_of_mem hq]; omega
          rw [hlen2]
          obtain ⟨i1, i2⟩ := ih (left.erase q) (hn.erase q)
          refine ⟨?_, ?_⟩
          · intro p
            by_cases hp : p = q
            · subst hp
              have hnot : p ∉ left.erase p := fun h => by simp [hn.mem_erase_iff] at h
              rw [if_pos hq, heq]
              have := i1 p
              rw [if_neg hnot] at this
              have e : askedOf p ((p, s, r) :: (cleanLoop seize (left.erase p) (left.erase p).length l).1) =
                  (s, r) :: askedOf p (cleanLoop seize (left.erase p) (left.erase p).length l).1 := by
                simp [askedOf]
              rw [e, this]
              simp [waitLoop, hos]
            · have hp' : ¬ q = p := fun h => hp h.symm
              have e : askedOf p ((q, s, r) :: (cleanLoop seize (left.erase q) (left.erase q).length l).1) =
                  askedOf p (cleanLoop seize (left.erase q) (left.erase q).length l).1 := by
                simp [askedOf, hp']
              rw [e, i1 p, hne p hp]
              have : p ∈ left.erase q ↔ p ∈ left := by
                rw [hn.mem_erase_iff]
                exact ⟨fun h => h.2, fun h => ⟨hp, h⟩⟩
              by_cases hm : p ∈ left
              · rw [if_pos hm, if_pos (this.mpr hm)]
              · rw [if_neg hm, if_neg (fun h => hm (this.mp h))]
          · rw [i2]
            constructor
            · intro h p hp
              by_cases hpq : p = q
              · subst hpq
                rw [heq]
                simp [waitLoop, hos]
              · rw [hne p hpq]
                exact h p (hn.mem_erase_iff.mpr ⟨hpq, hp⟩)
            · intro h p hp
              have := hn.mem_erase_iff.mp hp
              rw [← hne p this.1]
              exact h p this.2
        | false =>
          dsimp only
          rw [← hlen]
          obtain ⟨i1, i2⟩ := ih left hn
          refine ⟨?_, ?_⟩
          · intro p
            by_cases hp : p = q
            · subst hp
              have e : askedOf p ((p, s, r) :: (cleanLoop seize left left.length l).1) =
                  (s, r) :: askedOf p (cleanLoop seize left left.length l).1 := by
                simp [askedOf]
              rw [e, i1 p, if_pos hq, if_pos hq, heq]
              simp [waitLoop, hos]
            · have hp' : ¬ q = p := fun h => hp h.symm
              have e : askedOf p ((q, s, r) :: (cleanLoop seize left left.length l).1) =
                  askedOf p (cleanLoop seize left left.length l).1 := by
                simp [askedOf, hp']
              rw [e, i1 p, hne p hp]
          · rw [i2]
            constructor
            · intro h p hp
              by_cases hpq : p = q
              · subst hpq
                rw [heq]
                simp [waitLoop, hos, h p hp]
              · rw [hne p hpq]
                exact h p hp
            · intro h p hp
              have := h p hp
              by_cases hpq : p = q
              · subst hpq
                rw [heq] at this
                simpa [waitLoop, hos] using this
              · rw [hne p hpq] at this
                exact this
      · rw [if_neg hq, ← hlen]
        obtain ⟨i1, i2⟩ := ih left hn
        have hall : ∀ p ∈ left, p ≠ q := fun p hp h => hq (h ▸ hp)
        refine ⟨?_, ?_⟩
        · intro p
          rw [i1 p]
          by_cases hm : p ∈ left
          · rw [if_pos hm, if_pos hm, hne p (hall p hm)]
          · rw [if_neg hm, if_neg hm]
        · rw [i2]
          constructor
          · intro h p hp
            rw [hne p (hall p hp)]
            exact h p hp
          · intro h p hp
            rw [← hne p (hall p hp)]
            exact h p hp

theorem toWait_mem (seize : Bool) (tab : List (Nat × Tracee)) (p : Nat) :
    p ∈ toWait seize tab ↔ ∃ t, (p, t) ∈ tab ∧ (start seize t).2 = true := by
  induction tab with
  | nil => simp [toWait]
  | cons e tab ih =>
    obtain ⟨q, t⟩ := e
    rw [toWait]
    split
    · rename_i h
      rw [List.mem_cons, ih]
      constructor
      · rintro (h1 | ⟨t', h1, h2⟩)
        · exact ⟨t, by rw [h1]; exact List.mem_cons_self, h⟩
        · exact ⟨t', List.mem_cons_of_mem _ h1, h2⟩
      · rintro ⟨t', h1, h2⟩
        rcases List.mem_cons.mp h1 with h1 | h1
        · injection h1 with h1 _
          exact Or.inl h1
        · exact Or.inr ⟨t', h1, h2⟩
    · rename_i h
      rw [ih]
      constructor
      · rintro ⟨t', h1, h2⟩
        exact ⟨t', List.mem_cons_of_mem _ h1, h2⟩
      · rintro ⟨t', h1, h2⟩
        rcases List.mem_cons.mp h1 with h1 | h1
        · injection h1 with _ h1
          rw [h1] at h2
          exact absurd h2 h
        · exact ⟨t', h1, h2⟩

theorem toWait_nodup (seize : Bool) (tab : List (Nat × Tracee)) (hn : (tab.map (·.1)).Nodup) :
    (toWait seize tab).Nodup := by
  induction tab with
  | nil => simp [toWait]
  | cons e tab ih =>
    obtain ⟨q, t⟩ := e
    rw [List.map_cons, List.nodup_cons] at hn
    rw [toWait]
    split
    · refine List.nodup_cons.mpr ⟨?_, ih hn.2⟩
      intro h
      obtain ⟨t', h1, _⟩ := (toWait_mem seize tab q).mp h
      exact hn.1 (List.mem_map.mpr ⟨_, h1, rfl⟩)
    · exact ih hn.2

/-- C31: when strace ends, each tracee is detached as if it were alone, in whatever order stops are reported and
whatever unknown processes report; strace ends when each of them has been dealt with, and only then -/
theorem cleanup_each (seize : Bool) (tab : List (Nat × Tracee)) (hn : (tab.map (·.1)).Nodup) (l : List (Nat × Stop)) :
    (∀ p t, (p, t) ∈ tab → askedOf p (cleanup seize tab l).1 = (detach seize t (stopsOf p l)).2.1) ∧
    (∀ p, (∀ t, (p, t) ∉ tab) → askedOf p (cleanup seize tab l).1 = []) ∧
    ((cleanup seize tab l).2 = true ↔ ∀ p t, (p, t) ∈ tab → (detach seize t (stopsOf p l)).2.2 = .done) := by
  obtain ⟨i1, i2⟩ := cleanLoop_spec seize l _ (toWait_nodup seize tab hn)
  have huniq : ∀ p t t', (p, t) ∈ tab → (p, t') ∈ tab → t = t' := by
    clear i1 i2
    induction tab with
    | nil => simp
    | cons e tab ih =>
      rw [List.map_cons, List.nodup_cons] at hn
      intro p t t' h1 h2
      rcases List.mem_cons.mp h1 with h1 | h1 <;> rcases List.mem_cons.mp h2 with h2 | h2
      · rw [← h1] at h2; injection h2 with _ h2; exact h2.symm
      · exact absurd (List.mem_map.mpr ⟨_, h2, by rw [← h1]⟩) hn.1
      · exact absurd (List.mem_map.mpr ⟨_, h1, by rw [← h2]⟩) hn.1
      · exact ih hn.2 p t t' h1 h2
  refine ⟨?_, ?_, ?_⟩
  · intro p t h
    rw [cleanup, i1 p]
    by_cases hw : (start seize t).2 = true
    · rw [if_pos ((toWait_mem seize tab p).mpr ⟨t, h, hw⟩), detach, if_neg (by simp [hw])]
    · have : p ∉ toWait seize tab := by
        intro hm
        obtain ⟨t', h1, h2⟩ := (toWait_mem seize tab p).mp hm
        rw [← huniq p t t' h h1] at h2
        exact hw h2
      rw [if_neg this, detach, if_pos (by simpa using hw)]
  · intro p h
    rw [cleanup, i1 p, if_neg]
    intro hm
    obtain ⟨t', h1, _⟩ := (toWait_mem seize tab p).mp hm
    exact h t' h1
  · rw [cleanup, i2]
    constructor
    · intro h p t hm
      by_cases hw : (start seize t).2 = true
      · have := h p ((toWait_mem seize tab p).mpr ⟨t, hm, hw⟩)
        rw [detach, if_neg (by simp [hw])]
        simp [this]
      · rw [detach, if_pos (by simpa using hw)]
    · intro h p hm
      obtain ⟨t, h1, h2⟩ := (toWait_mem seize tab p).mp hm
      have := h p t h1
      rw [detach, if_neg (by simp [h2])] at this
      by_cases hl : (waitLoop seize (stopsOf p l)).2 = true
      · exact hl
      · rw [if_neg hl] at this
        simp at this

/-- two tracees, and a process strace does not know -/
example :
    let r := cleanup false [(7, ⟨true, false, true, none⟩), (8, ⟨true, true, true, none⟩), (9, ⟨true, false, true, some .syscall⟩)]
      [(8, .syscall), (5, .signal 2), (7, .signal 15), (8, .signal 19), (8, .syscall), (7, .killed 15 false)]
    r.2 = true ∧ askedOf 7 r.1 = [(.signal 15, some (.cont 15)), (.killed 15 false, none)] ∧
      askedOf 8 r.1 = [(.syscall, some (.cont 0)), (.signal 19, some (.detach 0))] ∧ askedOf 9 r.1 = [] := by
  decide +kernel

/-! ### Where it fails -/

/-- C31 (finding): strace is interrupted while a signal is about to be delivered to a tracee.  `dispatch_event` does
not restart the tracee, `cleanup` lets it go without the signal, and the signal is lost. -/
theorem signal_lost (c : Ev.Cfg) (cur : Nat) (tc : Ev.Tcb) (th : Option Ev.Tcb) (sys : Ev.Sys) (status : Nat) (seize : Bool)
    (x : Nat) (hx : 0 < x) (p : Nat) (l : List (Nat × Stop)) :
    (Ev.dispatch c cur true tc th sys .sigDelivery status).out = .quit ∧
    start seize ⟨true, false, true, some (.signal x)⟩ = ([.detach 0], false) ∧
    cleanup seize [(p, ⟨true, false, true, some (.signal x)⟩)] l = ([], true) ∧
    injected (.signal x) 0 = [] ∧ signals [.signal x] = [x] := by
  have h0 : start seize ⟨true, false, true, some (.signal x)⟩ = ([.detach 0], false) := by simp [start]
  refine ⟨rfl, h0, ?_, rfl, rfl⟩
  have hw : toWait seize [(p, ⟨true, false, true, some (.signal x)⟩)] = [] := by simp [toWait, h0]
  rw [cleanup, hw]
  simp [cleanLoop]

/-- C31 (finding): without PTRACE_SEIZE, a tracee whose attach SIGSTOP has not been seen and which is in another stop is
waited for, though a stopped tracee reports nothing: strace never ends -/
theorem waits_for_stopped (s : Stop) : detach false ⟨true, true, true, some s⟩ [] = ([], [], .waits) := by
  simp [detach, start, waitLoop]

end Strace.Detach
