import Verif.Cred.Spec
import Verif.Filter.Model
/-!
# -u: the program runs as the user, or not at all
-/
namespace Strace.Cred
open Strace.StringToUint Spec
open Strace.Filter (codes)

/-! ### The argument -/

theorem afterColon_some (s t : List Nat) : afterColon s = some t ↔ ∃ a, s = a ++ 58 :: t ∧ 58 ∉ a := by
  induction s with
  | nil => simp [afterColon]
  | cons c s ih =>
    unfold afterColon
    by_cases hc : c = 58
    · rw [if_pos hc]
      constructor
      · intro h
        injection h with h
        exact ⟨[], by simp [hc, h], by simp⟩
      · rintro ⟨a, h1, h2⟩
        cases a with
        | nil => simp at h1; rw [h1.2]
        | cons d a => simp at h1 h2; omega
    · rw [if_neg hc, ih]
      constructor
      · rintro ⟨a, h1, h2⟩
        exact ⟨c :: a, by simp [h1], by simp [h2]; omega⟩
      · rintro ⟨a, h1, h2⟩
        cases a with
        | nil => simp at h1; exact absurd h1.1 hc
        | cons d a => simp at h1 h2; exact ⟨a, h1.2, h2.2⟩

theorem idOf_iff (s : List Nat) (n : Nat) (hn : n ≠ noId) :
    idOf s = n ↔ ∃ rest, Accepts s (2 ^ 32 - 2) [58] n rest := by
  have key := fun v rest => stringToUintEx_iff s (2 ^ 32 - 2) (some [58]) v rest
  unfold idOf
  rw [show 2 ^ 32 - 1 - 1 = 2 ^ 32 - 2 by omega]
  cases h : stringToUintEx s (2 ^ 32 - 2) (some [58]) with
  | none =>
    constructor
    · intro e
      exact absurd e.symm hn
    · rintro ⟨rest, hr⟩
      have := (key n rest).2 ⟨n, rfl, hr⟩
      rw [h] at this
      simp at this
  | some y =>
    obtain ⟨v, r⟩ := y
    obtain ⟨m, hm, ha⟩ := (key v r).1 h
    dsimp only
    constructor
    · intro e
      refine ⟨r, ?_⟩
      have : n = m := by omega
      rw [this]
      exact ha
    · rintro ⟨rest, hr⟩
      have := (key n rest).2 ⟨n, rfl, hr⟩
      rw [h] at this
      simp only [Option.some.injEq, Prod.mk.injEq] at this
      omega

/-- the number before the colon is all there is before the colon -/
theorem accepts_colon (a b : List Nat) (ha : 58 ∉ a) (m n : Nat) :
    (∃ rest, Accepts (a ++ 58 :: b) m [58] n rest) ↔ Accepts a m [] n [] := by
  constructor
  · rintro ⟨rest, ws, sg, ds, h1, h2, h3, h4, h5, h6, h7⟩
    have hpre : 58 ∉ ws ++ sg ++ ds := by
      simp only [List.mem_append, not_or]
      refine ⟨⟨?_, ?_⟩, ?_⟩
      · intro h; have := h2 _ h; simp [isSpace] at this
      · rcases h3 with r | r | r <;> rw [r] <;> simp
      · intro h; have := h5 _ h; simp [isDigit] at this
    have hrest : ∃ t, rest = 58 :: t := by
      cases rest with
      | nil =>
        exfalso
        rw [List.append_nil] at h1
        exact hpre (by rw [← h1]; simp)
      | cons c t =>
        have := (h6 c t rfl).2
        simp at this
        exact ⟨t, by rw [this]⟩
    obtain ⟨t, rfl⟩ := hrest
    have hsplit : ∀ (x y u v : List Nat), 58 ∉ x → 58 ∉ u → x ++ 58 :: y = u ++ 58 :: v → x = u := by
      intro x
      induction x with
      | nil =>
        intro y u v _ hu h
        cases u with
        | nil => rfl
        | cons d u => simp at h hu; omega
      | cons c x ih =>
        intro y u v hx hu h
        cases u with
        | nil => simp at h hx; omega
        | cons d u =>
          simp at h hx hu
          rw [h.1, ih y u v hx.2 hu.2 h.2]
    have := hsplit a b (ws ++ sg ++ ds) t ha hpre h1
    exact ⟨ws, sg, ds, by simp [this], h2, h3, h4, h5, by simp, h7⟩
  · rintro ⟨ws, sg, ds, h1, h2, h3, h4, h5, _, h7⟩
    refine ⟨58 :: b, ws, sg, ds, by rw [h1]; simp, h2, h3, h4, h5, ?_, h7⟩
    intro c t h
    simp at h
    rw [← h.1]
    simp [isDigit]

/-- **C103 (the argument; partial)** As far as the text has one colon: -u with a colon is accepted exactly when it is two
numbers, neither being the one that means "no change", and those are the user and the group, with no supplementary
groups; no name is looked up. -/
theorem pair_partial (getpw : List Nat → Option User) (s a b : List Nat) (hs : s = a ++ 58 :: b) (ha : 58 ∉ a) (hb : 58 ∉ b)
    (w : Who) :
    parseUser getpw true s = .run w ↔ ∃ u g, IsPair s u g ∧ w = ⟨u, g, []⟩ := by
  have hc : afterColon s = some b := (afterColon_some s b).2 ⟨a, hs, ha⟩
  have hA : ∀ u, u ≠ noId → (idOf s = u ↔ Accepts a (2 ^ 32 - 2) [] u []) := by
    intro u hu
    rw [idOf_iff s u hu, hs]
    exact accepts_colon a b ha _ _
  have hB : ∀ g, g ≠ noId → (idOf b = g ↔ Accepts b (2 ^ 32 - 2) [] g []) := by
    intro g hg
    rw [idOf_iff b g hg]
    constructor
    · rintro ⟨rest, ws, sg, ds, h1, h2, h3, h4, h5, h6, h7⟩
      have hr : rest = [] := by
        cases rest with
        | nil => rfl
        | cons c t =>
          have := (h6 c t rfl).2
          simp at this
          exact absurd (by rw [h1, this]; simp) hb
      subst hr
      exact ⟨ws, sg, ds, h1, h2, h3, h4, h5, by simp, h7⟩
    · rintro ⟨ws, sg, ds, h1, h2, h3, h4, h5, _, h7⟩
      exact ⟨[], ws, sg, ds, h1, h2, h3, h4, h5, by simp, h7⟩
  have hsmall : ∀ t n, Accepts t (2 ^ 32 - 2) [] n [] → n ≠ noId := by
    rintro t n ⟨ws, sg, ds, _, _, _, _, _, _, _, h, _⟩
    unfold noId
    omega
  unfold parseUser uidGidPair
  rw [if_neg (by simp), hc]
  dsimp only
  by_cases hx : idOf s = noId ∨ idOf b = noId
  · rw [if_pos hx]
    constructor
    · intro h; simp at h
    · rintro ⟨u, g, ⟨a', b', e, ha', hb', h1, h2⟩, _⟩
      have e2 : afterColon s = some b' := (afterColon_some s b').2 ⟨a', e, ha'⟩
      rw [hc] at e2
      injection e2 with e2
      subst e2
      have e3 : a' = a := by
        rw [e] at hs
        exact List.append_cancel_right hs
      subst e3
      have x1 := (hA u (hsmall _ _ h1)).2 h1
      have x2 := (hB g (hsmall _ _ h2)).2 h2
      rcases hx with hx | hx
      · exact absurd (x1.symm.trans hx) (hsmall _ _ h1)
      · exact absurd (x2.symm.trans hx) (hsmall _ _ h2)
  · rw [if_neg hx]
    have hx1 : idOf s ≠ noId := fun h => hx (.inl h)
    have hx2 : idOf b ≠ noId := fun h => hx (.inr h)
    constructor
    · intro h
      injection h with h
      exact ⟨idOf s, idOf b, ⟨a, b, hs, ha, hb, (hA _ hx1).1 rfl, (hB _ hx2).1 rfl⟩, h.symm⟩
    · rintro ⟨u, g, ⟨a', b', e, ha', hb', h1, h2⟩, hw⟩
      have e2 : afterColon s = some b' := (afterColon_some s b').2 ⟨a', e, ha'⟩
      rw [hc] at e2
      injection e2 with e2
      subst e2
      have e3 : a' = a := by
        rw [e] at hs
        exact List.append_cancel_right hs
      subst e3
      rw [hw, (hA u (hsmall _ _ h1)).2 h1, (hB g (hsmall _ _ h2)).2 h2]

/-- **C103** A text without a colon is a name, and only root may use it. -/
theorem user_name (getpw : List Nat → Option User) (s : List Nat) (hs : 58 ∉ s) (w : Who) (root : Bool) :
    parseUser getpw root s = .run w ↔ root = true ∧ ∃ p, getpw s = some p ∧ w = ⟨p.uid, p.gid, p.groups⟩ := by
  have hc : afterColon s = none := by
    cases h : afterColon s with
    | none => rfl
    | some t =>
      obtain ⟨a, h1, _⟩ := (afterColon_some s t).1 h
      exact absurd (by rw [h1]; simp) hs
  unfold parseUser uidGidPair
  rw [hc]
  cases root with
  | false => simp
  | true =>
    simp only [Bool.true_eq_false, if_false, true_and]
    cases getpw s with
    | none => simp
    | some p => simp [eq_comm]

/-- **C103 (where it fails)** What follows a second colon is not looked at: `-u 5:6:junk` is taken for 5:6. -/
theorem pair_junk (getpw : List Nat → Option User) :
    parseUser getpw true (codes "5:6:junk") = .run ⟨5, 6, []⟩ ∧ ¬ ∃ u g, IsPair (codes "5:6:junk") u g := by
  refine ⟨?_, ?_⟩
  · have h1 : uidGidPair (codes "5:6:junk") = some (5, 6) := by decide +kernel
    unfold parseUser
    rw [h1]
    rfl
  · rintro ⟨u, g, a, b, e, ha, hb, _⟩
    have h1 : afterColon (codes "5:6:junk") = some b := (afterColon_some _ b).2 ⟨a, e, ha⟩
    have h2 : afterColon (codes "5:6:junk") = some (codes "6:junk") := by decide +kernel
    rw [h1] at h2
    injection h2 with h2
    rw [h2] at hb
    exact hb (by decide +kernel)

/-! ### The last steps -/

theorem works_nofilter (c : Cfg) (p : Proc) (s : Sys) (h : p.filter = false) : works c p s = true := by
  simp [works, h]

theorem initFilter_cr (c : Cfg) (p : Proc) : (initFilter c p).cr = p.cr := by
  unfold initFilter
  cases c.seccomp <;> rfl

theorem initFilter_traced (c : Cfg) (p : Proc) : (initFilter c p).traced = p.traced := by
  unfold initFilter
  cases c.seccomp <;> rfl

theorem await_cr (c : Cfg) (p : Proc) : (await c p).cr = p.cr ∧ (await c p).nnp = p.nnp ∧ (await c p).filter = p.filter := by
  unfold await
  cases c.daemon <;> simp only [Bool.false_eq_true, if_false, if_true] <;> split <;> simp

/-- what has become of the process, if it is still there -/
theorem become_some (c : Cfg) (p p' : Proc) (w : Who) (hu : c.user = some w) (hr : Root p) (h : become c p = .ok p') :
    AsUser w c.exe p' ∧ p'.traced = false ∧ p'.filter = c.seccomp := by
  unfold become at h
  rw [hu] at h
  simp only [setgroups, hr.euid, if_true, setregid, true_or, setreuid] at h
  split at h
  · simp at h
  · rename_i hw
    injection h with h
    subst h
    refine ⟨⟨rfl, rfl, rfl, rfl, rfl, rfl, rfl, ?_⟩, ?_, ?_⟩
    · show (initFilter c _).nnp = false
      unfold initFilter
      cases c.seccomp <;> simp [hr.nnp, hr.euid]
    · show (initFilter c _).traced = false
      rw [initFilter_traced]
      exact hr.traced
    · show (initFilter c _).filter = c.seccomp
      unfold initFilter
      cases c.seccomp <;> simp [hr.filter]

/-- **C103** If the program is executed at all then, with -u, it is executed as the user, with the identifiers of a set-id
file as effective ones, with their groups only and with nothing of root's left; without -u, as whoever runs strace.
This is whatever the filter does. -/
theorem runs_as (c : Cfg) (p p' : Proc) (hr : Root p) (h : execOrDie c p = .runs p') :
    match c.user with
    | some w => AsUser w c.exe p'
    | none => Unchanged p p' := by
  unfold execOrDie at h
  cases hb : become c p with
  | error e =>
    rw [hb] at h
    dsimp only at h
    exfalso
    unfold become at hb
    cases hu : c.user with
    | none => rw [hu] at hb; simp at hb
    | some w =>
      rw [hu] at hb
      simp only [setgroups, hr.euid, if_true, setregid, true_or, setreuid] at hb
      split at hb
      · injection hb with hb
        rw [← hb] at h
        simp at h
      · simp at hb
  | ok p1 =>
    rw [hb] at h
    dsimp only at h
    unfold finish at h
    cases hu : c.user with
    | some w =>
      dsimp only
      obtain ⟨a, _, _⟩ := become_some c p p1 w hu hr hb
      obtain ⟨e1, e2, e3⟩ := await_cr c p1
      rw [hu] at h
      simp only [Option.isNone_some, Bool.false_eq_true, if_false] at h
      split at h
      · simp at h
      · injection h with h
        subst h
        refine ⟨?_, ?_, ?_, ?_, ?_, ?_, ?_, ?_⟩
        · rw [e1]; exact a.ruid
        · rw [e1]; exact a.rgid
        · rw [e1]; exact a.euid
        · rw [e1]; exact a.egid
        · rw [e1]; exact a.suid
        · rw [e1]; exact a.sgid
        · rw [e1]; exact a.groups
        · rw [e2]; exact a.nnp
    | none =>
      dsimp only
      rw [hu] at h
      simp only [Option.isNone_none, if_true] at h
      have e0 : p1 = p := by
        unfold become at hb
        rw [hu] at hb
        injection hb with hb
        exact hb.symm
      split at h
      · simp at h
      · injection h with h
        subst h
        unfold Unchanged
        rw [initFilter_cr, (await_cr c p1).1, e0]

/-- C103: a process without privileges has a filter only with no_new_privs, as the kernel demands; and no_new_privs is set for
that purpose only -/
theorem filter_privs (c : Cfg) (p p' : Proc) (hf : p.filter = false) (hu : c.user = none) (h : execOrDie c p = .runs p') :
    (p'.filter = true → p'.nnp = true ∨ p'.cr.euid = 0) ∧ (p'.nnp = true → p.nnp = true ∨ (c.seccomp = true ∧ p.cr.euid ≠ 0)) := by
  unfold execOrDie at h
  have hb : become c p = .ok p := by unfold become; rw [hu]
  rw [hb] at h
  dsimp only at h
  unfold finish at h
  rw [hu] at h
  simp only [Option.isNone_none, if_true] at h
  split at h
  · cases h
  · injection h with h
    subst h
    obtain ⟨e1, e2, e3⟩ := await_cr c p
    unfold initFilter
    cases hs : c.seccomp with
    | false =>
      simp only [Bool.false_eq_true, if_false]
      refine ⟨fun h => ?_, fun h => ?_⟩
      · rw [e3, hf] at h; cases h
      · rw [e2] at h; exact Or.inl h
    | true =>
      simp only [if_true]
      rw [e1, e2]
      refine ⟨fun _ => ?_, fun h => ?_⟩
      · by_cases h0 : p.cr.euid = 0
        · exact Or.inr h0
        · left; simp [h0]
      · simp only [Bool.or_eq_true, decide_eq_true_eq] at h
        rcases h with h | h
        · exact Or.inl h
        · exact Or.inr ⟨trivial, h⟩

/-- **C103 (partial)** The program is executed, with its tracer attached and the filter as asked for, when root runs
strace: except that, with -u together with --seccomp-bpf, none of the calls that strace itself makes then may be among
those that are traced. -/
theorem runs_partial (c : Cfg) (p : Proc) (hr : Root p)
    (h : c.seccomp = false ∨ c.user = none ∨
      (c.sel .setreuid = false ∧ (if c.daemon then c.sel .wait4 = false else c.sel .getpid = false ∧ c.sel .kill = false))) :
    ∃ p', execOrDie c p = .runs p' ∧ p'.traced = true ∧ p'.filter = c.seccomp := by
  have fin : ∀ q : Proc, q.traced = true → ∀ s, works c q s = true := by
    intro q hq s
    simp [works, hq]
  unfold execOrDie
  cases hu : c.user with
  | none =>
    have hb : become c p = .ok p := by unfold become; rw [hu]
    rw [hb]
    dsimp only
    have ht : (await c p).traced = true := by
      unfold await
      rw [works_nofilter c p _ hr.filter, works_nofilter c p _ hr.filter, works_nofilter c p _ hr.filter]
      cases c.daemon <;> simp
    unfold finish
    rw [hu]
    simp only [Option.isNone_none, if_true]
    have ht' : (initFilter c (await c p)).traced = true := by rw [initFilter_traced]; exact ht
    rw [fin _ ht']
    refine ⟨_, by simp, ht', ?_⟩
    have e3 := (await_cr c p).2.2
    unfold initFilter
    cases c.seccomp <;> simp [e3, hr.filter]
  | some w =>
    have hok : ∀ s q, (c.seccomp = false ∧ q.filter = false) ∨ (c.sel s = false ∧ s ≠ .execve) → works c q s = true := by
      rintro s q (⟨h1, h2⟩ | ⟨h1, h2⟩)
      · exact works_nofilter c q s h2
      · simp [works, h1, h2]
    have hset : ∀ q : Proc, (initFilter c q).filter = (c.seccomp || q.filter) := by
      intro q
      unfold initFilter
      cases c.seccomp <;> simp
    have hcase : c.seccomp = false ∨ (c.sel .setreuid = false ∧
        (if c.daemon then c.sel .wait4 = false else c.sel .getpid = false ∧ c.sel .kill = false)) := by
      rcases h with h | h | h
      · exact .inl h
      · rw [hu] at h; simp at h
      · exact .inr h
    have hb : ∃ p1, become c p = .ok p1 := by
      unfold become
      rw [hu]
      simp only [setgroups, hr.euid, if_true, setregid, true_or, setreuid]
      rw [if_neg]
      · exact ⟨_, rfl⟩
      · rw [hok]
        · simp
        · rcases hcase with h | h
          · left
            refine ⟨h, ?_⟩
            rw [hset, h]
            exact hr.filter
          · exact .inr ⟨h.1, by simp⟩
    obtain ⟨p1, hb⟩ := hb
    rw [hb]
    dsimp only
    obtain ⟨_, h1, h2⟩ := become_some c p p1 w hu hr hb
    have ht : (await c p1).traced = true := by
      unfold await
      rcases hcase with h | h
      · have hf : p1.filter = false := by rw [h2, h]
        rw [works_nofilter c p1 _ hf, works_nofilter c p1 _ hf, works_nofilter c p1 _ hf]
        cases c.daemon <;> simp
      · cases hd : c.daemon with
        | true =>
          rw [hd] at h
          simp only [if_true] at h ⊢
          rw [hok .wait4 p1 (.inr ⟨h.2, by simp⟩)]
          simp
        | false =>
          rw [hd] at h
          simp only [Bool.false_eq_true, if_false] at h ⊢
          rw [hok .getpid p1 (.inr ⟨h.2.1, by simp⟩), hok .kill p1 (.inr ⟨h.2.2, by simp⟩)]
          simp
    unfold finish
    rw [hu]
    simp only [Option.isNone_some, Bool.false_eq_true, if_false]
    rw [fin _ ht]
    exact ⟨_, by simp, ht, by rw [(await_cr c p1).2.2, h2]⟩

/-- **C103 (where it fails)** With -u and --seccomp-bpf, tracing setreuid keeps the program from being run at all: the
filter is there before strace itself calls it, and no tracer is. -/
theorem seccomp_setreuid (c : Cfg) (p : Proc) (w : Who) (hr : Root p) (hs : c.seccomp = true) (hu : c.user = some w)
    (ht : c.sel .setreuid = true) : execOrDie c p = .died .setreuid := by
  have hw : ∀ q : Proc, q.traced = false → works c (initFilter c q) .setreuid = false := by
    intro q hq
    unfold initFilter
    rw [hs]
    simp [works, ht, hq]
  unfold execOrDie become
  rw [hu]
  simp only [setgroups, hr.euid, if_true, setregid, true_or]
  split
  · rename_i e he
    split at he
    · injection he with he
      exact he.symm
    · rename_i hc
      exact absurd (by apply hw; exact hr.traced) hc
  · rename_i q he
    split at he
    · simp at he
    · rename_i hc
      exact absurd (by apply hw; exact hr.traced) hc

/-- **C103 (where it fails)** … and tracing kill or getpid does, too (the process does not stop, so it is not attached to
when it executes the program); in the latter case the SIGSTOP is sent elsewhere. -/
theorem seccomp_stop (c : Cfg) (p : Proc) (w : Who) (hr : Root p) (hs : c.seccomp = true) (hu : c.user = some w)
    (hd : c.daemon = false) (ht : c.sel .kill = true ∨ c.sel .getpid = true) :
    (∃ s, execOrDie c p = .died s) ∧
    (c.sel .kill = false → ∀ p', become c p = .ok p' → stopTarget c p' = .group 38) := by
  have hw : ∀ q : Proc, q.filter = true → q.traced = false → ∀ s, c.sel s = true → works c q s = false := by
    intro q h1 h2 s h3
    simp [works, h1, h2, h3]
  refine ⟨?_, ?_⟩
  · unfold execOrDie
    cases hb : become c p with
    | error e =>
      dsimp only
      unfold become at hb
      rw [hu] at hb
      simp only [setgroups, hr.euid, if_true, setregid, true_or, setreuid] at hb
      split at hb
      · injection hb with hb
        exact ⟨_, hb.symm⟩
      · simp at hb
    | ok p1 =>
      dsimp only
      obtain ⟨_, h1, h2⟩ := become_some c p p1 w hu hr hb
      rw [hs] at h2
      have ha : await c p1 = p1 := by
        unfold await
        rw [hd]
        simp only [Bool.false_eq_true, if_false]
        rcases ht with ht | ht
        · rw [hw p1 h2 h1 _ ht]; simp
        · rw [hw p1 h2 h1 _ ht]; simp
      rw [ha]
      unfold finish
      rw [hu]
      simp only [Option.isNone_some, Bool.false_eq_true, if_false]
      refine ⟨.execve, ?_⟩
      rw [if_pos]
      simp [works, h1, h2]
  · intro hk p1 hb
    obtain ⟨_, h1, h2⟩ := become_some c p p1 w hu hr hb
    rw [hs] at h2
    have hg : c.sel .getpid = true := by
      rcases ht with ht | ht
      · rw [hk] at ht; simp at ht
      · exact ht
    unfold stopTarget
    rw [if_neg (by simp [works, hk]), if_pos (hw p1 h2 h1 _ hg)]

/-- A case: root, a set-user-ID file of user 0, -u of user 1000. -/
example : Root ⟨⟨0, 0, 0, 0, 0, 0, [0, 10]⟩, false, false, false⟩ := ⟨rfl, rfl, rfl, rfl⟩

/-- … the program has the real user 1000, the effective user 0, and the groups of the user -/
example : execOrDie ⟨some ⟨1000, 100, [100, 7]⟩, ⟨true, false, 0, 0⟩, true, fun s => s = .execve, false, false⟩
    ⟨⟨0, 0, 0, 0, 0, 0, [0, 10]⟩, false, false, false⟩ =
    .runs ⟨⟨1000, 0, 0, 100, 100, 100, [100, 7]⟩, true, false, true⟩ := by
  decide +kernel

/-- A case for the argument: `-u 1000:100`. -/
example : parseUser (fun _ => none) true (codes "1000:100") = .run ⟨1000, 100, []⟩ := by decide +kernel

end Strace.Cred
