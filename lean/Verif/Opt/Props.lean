import Verif.Opt.Lemmas
/-!
# C97: options mean together what they say
-/
namespace Strace.Opt

/-! ### The checks after the loop -/

theorem checkDaemon_eq (e : Env) (s : St) (h : s.daemonLong ≤ 3) : checkDaemon e s =
    if (s.daemonLong ≠ 0 ∧ s.daemon ≠ 0) ∨ (e.prog = false ∧ (s.daemonLong ≠ 0 ∨ s.daemon ≠ 0)) ∨ 3 < s.daemon then none
    else some { s with daemon := if s.daemonLong ≠ 0 then s.daemonLong else s.daemon } := by
  unfold checkDaemon
  by_cases h1 : s.daemonLong ≠ 0
  · simp only [if_pos h1]
    by_cases h2 : s.daemon ≠ 0
    · rw [if_pos h2, if_pos (Or.inl ⟨h1, h2⟩)]; rfl
    · rw [if_neg h2]
      simp only [Option.bind_some]
      by_cases h3 : e.prog = false
      · rw [if_pos ⟨h3, h1⟩, if_pos (Or.inr (Or.inl ⟨h3, Or.inl h1⟩))]
      · rw [if_neg (fun hh => h3 hh.1), if_neg (by omega)]
        rw [if_neg]
        rintro (hh | hh | hh)
        · exact h2 hh.2
        · exact h3 hh.1
        · omega
  · simp only [if_neg h1, Option.bind_some]
    by_cases h3 : e.prog = false ∧ s.daemon ≠ 0
    · rw [if_pos h3, if_pos (Or.inr (Or.inl ⟨h3.1, Or.inr h3.2⟩))]
    · rw [if_neg h3]
      by_cases h4 : s.daemon > 3
      · rw [if_pos h4, if_pos (Or.inr (Or.inr h4))]
      · rw [if_neg h4, if_neg]
        rintro (hh | hh | hh)
        · exact h1 hh.1
        · rcases hh.2 with hx | hx
          · exact h1 hx
          · exact h3 ⟨hh.1, hx⟩
        · exact h4 hh

theorem checkTime_eq (s : St) : checkTime s =
    if s.tShort ≠ 0 ∧ s.tLong = true then none
    else some { s with
      tFormat := if s.tShort ≠ 0 then some (decide (3 ≤ s.tShort)) else s.tFormat
      tWidth := if 2 ≤ s.tShort then 6 else s.tWidth } := by
  unfold checkTime
  by_cases h : s.tShort ≠ 0
  · rw [if_pos h]
    by_cases h2 : s.tLong = true
    · rw [if_pos h2, if_pos ⟨h, h2⟩]
    · have hx : ¬ (s.tShort ≠ 0 ∧ s.tLong = true) := fun hh => h2 hh.2
      rw [if_neg h2, if_neg hx]
      simp only [if_pos h]
      by_cases h3 : s.tShort = 1
      · rw [if_pos h3, if_neg (show ¬ 2 ≤ s.tShort by omega), show decide (3 ≤ s.tShort) = false from decide_eq_false (by omega)]
        cases s; simp [setTs]
      · by_cases h4 : s.tShort = 2
        · rw [if_neg h3, if_pos h4, if_pos (show 2 ≤ s.tShort by omega), show decide (3 ≤ s.tShort) = false from decide_eq_false (by omega)]
          cases s; simp [setTs]
        · rw [if_neg h3, if_neg h4, if_pos (show 2 ≤ s.tShort by omega), show decide (3 ≤ s.tShort) = true from decide_eq_true (by omega)]
          cases s; simp [setTs]
  · rw [if_neg h, if_neg (fun hh => h hh.1), if_neg h, if_neg (by omega)]

theorem checkHex_eq (s : St) : checkHex s =
    if s.xLong ≠ none ∧ s.xflag ≠ 0 then none else some { s with xflag := s.xLong.getD s.xflag } := by
  unfold checkHex
  cases h : s.xLong with
  | none => cases s; simp_all
  | some v =>
    by_cases h2 : s.xflag ≠ 0
    · simp [h2]
    · cases s; simp_all

theorem checkPaths_eq (s : St) : checkPaths s =
    if s.fdUpdated = true ∧ s.yShort ≠ 0 then none else some { s with fdSome := if s.yShort ≠ 0 then true else s.fdSome } := by
  unfold checkPaths
  by_cases h : s.yShort ≠ 0 <;> by_cases h2 : s.fdUpdated = true <;> cases s <;> simp_all

theorem checkFollow_eq (s : St) : checkFollow s =
    if (s.follow = true ∧ s.followShort ≠ 0) ∨ (s.separate = true ∧ 2 ≤ s.followShort) then none
    else some { s with
      follow := if s.followShort ≠ 0 then true else s.follow
      separate := if s.followShort ≠ 0 then decide (2 ≤ s.followShort) else s.separate } := by
  unfold checkFollow
  by_cases h : s.followShort ≠ 0
  · by_cases h2 : s.follow = true <;> by_cases h3 : s.separate = true <;> by_cases h4 : 2 ≤ s.followShort <;> cases s <;> simp_all
  · have : ¬ 2 ≤ s.followShort := by omega
    cases s; simp_all

theorem checkKill_eq (e : Env) (s : St) (b : Bool) : checkKill e s b =
    if s.kill = true ∧ (0 < s.nprocs ∨ e.exitKill = false) then none
    else some (s.kill || (b && decide (s.nprocs = 0) && e.exitKill)) := by
  unfold checkKill
  by_cases h : s.kill = true <;> by_cases h2 : s.nprocs = 0 <;> cases h3 : e.exitKill <;> simp [h, h2, Nat.pos_of_ne_zero]

theorem quietOf_eq (e : Env) (s : St) : quietOf e s =
    if s.quietUpdated = true ∧ s.qShort ≠ 0 then none
    else some (if s.quietUpdated = true then .listed else if s.qShort ≠ 0 then .level (min s.qShort 3)
      else if s.out ≠ none ∧ e.prog = true then .level 1 else .level 0) := by
  unfold quietOf
  by_cases h : s.quietUpdated = true <;> by_cases h2 : s.qShort = 0 <;> by_cases h3 : s.out = none <;>
    by_cases h4 : e.prog = true <;> simp [h, h2, h3, h4]

theorem piped_iff (n : List Nat) : (n.head? = some 124 ∨ n.head? = some 33) ↔ Piped n := by
  cases n with
  | nil => simp [Piped]
  | cons a r =>
    constructor
    · rintro (h | h)
      · exact ⟨r, Or.inl (by rw [Option.some.inj h])⟩
      · exact ⟨r, Or.inr (by rw [Option.some.inj h])⟩
    · rintro ⟨q, h | h⟩
      · exact Or.inl (by rw [h]; rfl)
      · exact Or.inr (by rw [h]; rfl)

/-- where lines go, given whether every process has a file of its own -/
def GoesWith (sep : Bool) (out : Option (List Nat)) (d : Dest) : Prop :=
  (out = none ∧ d = .stderr) ∨
  ∃ n, out = some n ∧
    ((∃ r, (n = 124 :: r ∨ n = 33 :: r) ∧ d = .pipe r) ∨
     (¬ Piped n ∧ sep = false ∧ d = .file n) ∨
     (¬ Piped n ∧ sep = true ∧ d = .files n))

theorem destOf_eq (s : St) :
    (destOf s = none ∧ s.separate = true ∧ ∃ n, s.out = some n ∧ (Piped n ∨ 4084 ≤ n.length)) ∨
    (¬ (s.separate = true ∧ ∃ n, s.out = some n ∧ (Piped n ∨ 4084 ≤ n.length)) ∧
      ∃ d, destOf s = some d ∧ GoesWith s.separate s.out d) := by
  unfold destOf
  cases h : s.out with
  | none => exact Or.inr ⟨by simp, .stderr, rfl, Or.inl ⟨rfl, rfl⟩⟩
  | some n =>
    dsimp only
    by_cases hp : Piped n
    · rw [if_pos ((piped_iff n).mpr hp)]
      by_cases hs : s.separate = true
      · exact Or.inl ⟨if_pos hs, hs, n, rfl, Or.inl hp⟩
      · refine Or.inr ⟨fun hh => hs hh.1, .pipe n.tail, if_neg hs, Or.inr ⟨n, rfl, Or.inl ?_⟩⟩
        obtain ⟨r, hr⟩ := hp
        refine ⟨r, hr, ?_⟩
        rcases hr with hr | hr <;> rw [hr] <;> rfl
    · rw [if_neg (fun h => hp ((piped_iff n).mp h))]
      by_cases hs : s.separate = true
      · rw [if_neg (by simp [hs])]
        by_cases hl : n.length ≥ 4096 - 12
        · exact Or.inl ⟨if_pos hl, hs, n, rfl, Or.inr hl⟩
        · refine Or.inr ⟨?_, .files n, if_neg hl, Or.inr ⟨n, rfl, Or.inr (Or.inr ⟨hp, hs, rfl⟩)⟩⟩
          rintro ⟨_, m, hm, hh⟩
          cases hm
          rcases hh with hh | hh
          · exact hp hh
          · exact hl hh
      · have hs' : s.separate = false := by cases hh : s.separate; rfl; exact absurd hh hs
        exact Or.inr ⟨fun hh => hs hh.1, .file n, if_pos hs', Or.inr ⟨n, rfl, Or.inr (Or.inl ⟨hp, hs', rfl⟩)⟩⟩

/-! ### Options and variables -/

theorem args_ne_nil {α : Type} (f : Opt → Option α) (l : List Opt) : args f l ≠ [] ↔ ∃ o a, o ∈ l ∧ f o = some a := by
  unfold args
  constructor
  · intro h
    obtain ⟨a, ha⟩ := List.exists_mem_of_ne_nil _ h
    obtain ⟨o, ho, hf⟩ := List.mem_filterMap.mp ha
    exact ⟨o, a, ho, hf⟩
  · rintro ⟨o, a, ho, hf⟩ hn
    have : a ∈ l.filterMap f := List.mem_filterMap.mpr ⟨o, ho, hf⟩
    rw [hn] at this
    cases this

theorem last_ne_none {α : Type} (f : Opt → Option α) (l : List Opt) : last f l ≠ none ↔ ∃ o a, o ∈ l ∧ f o = some a := by
  rw [← args_ne_nil, last, ne_eq, List.getLast?_eq_none_iff]

theorem last_mem {α : Type} (f : Opt → Option α) (l : List Opt) (a : α) (h : last f l = some a) : ∃ o, o ∈ l ∧ f o = some a := by
  have := List.mem_of_getLast? h
  obtain ⟨o, ho, hf⟩ := List.mem_filterMap.mp this
  exact ⟨o, ho, hf⟩

theorem given_daemon (l : List Opt) : (∃ v, Opt.daemonize v ∈ l) ↔ (last daemonArg l).getD 0 ≠ 0 := by
  constructor
  · rintro ⟨v, hv⟩
    have hn : last daemonArg l ≠ none := (last_ne_none _ _).mpr ⟨_, _, hv, rfl⟩
    cases h : last daemonArg l with
    | none => exact absurd h hn
    | some a =>
      obtain ⟨o, _, ho⟩ := last_mem _ _ _ h
      cases o <;> simp [daemonArg] at ho
      simp; omega
  · intro h
    cases hl : last daemonArg l with
    | none => rw [hl] at h; exact absurd rfl h
    | some a =>
      obtain ⟨o, hm, ho⟩ := last_mem _ _ _ hl
      cases o <;> simp [daemonArg] at ho
      exact ⟨_, hm⟩

theorem daemon_le (l : List Opt) : (last daemonArg l).getD 0 ≤ 3 := by
  cases hl : last daemonArg l with
  | none => simp
  | some a =>
    obtain ⟨o, hm, ho⟩ := last_mem _ _ _ hl
    cases o <;> simp [daemonArg] at ho
    simp; omega

theorem given_stamp (l : List Opt) : (∃ t, Opt.timestamps t ∈ l) ↔ args stampArg l ≠ [] := by
  rw [args_ne_nil]
  constructor
  · rintro ⟨t, ht⟩; exact ⟨_, _, ht, rfl⟩
  · rintro ⟨o, a, ho, hf⟩
    cases o <;> simp [stampArg] at hf
    exact ⟨_, ho⟩

theorem given_fd (l : List Opt) : (∃ b, Opt.decodeFds b ∈ l) ↔ args fdArg l ≠ [] := by
  rw [args_ne_nil]
  constructor
  · rintro ⟨t, ht⟩; exact ⟨_, _, ht, rfl⟩
  · rintro ⟨o, a, ho, hf⟩
    cases o <;> simp [fdArg] at hf
    exact ⟨_, ho⟩

theorem given_hex (l : List Opt) : (∃ v, Opt.hexStr v ∈ l) ↔ last hexArg l ≠ none := by
  rw [last_ne_none]
  constructor
  · rintro ⟨t, ht⟩; exact ⟨_, _, ht, rfl⟩
  · rintro ⟨o, a, ho, hf⟩
    cases o <;> simp [hexArg] at hf
    exact ⟨_, ho⟩

theorem given_count (o : Opt) (l : List Opt) : o ∈ l ↔ l.count o ≠ 0 := by
  rw [← List.count_pos_iff]; omega

theorem level_zero (l : List Opt) : level l = 0 ↔ Opt.stack ∉ l ∧ ¬ ∃ b, Opt.stackTrace b ∈ l := by
  induction l using List.reverseRecOn with
  | nil => simp [level_nil]
  | append_singleton l o ih =>
    by_cases hs : o = .stack
    · subst hs
      rw [level_stack]
      simp
    · by_cases ha : stackArg o = none
      · rw [level_other l o ha hs, ih]
        have : ∀ b, o ≠ .stackTrace b := by rintro b rfl; cases ha
        simp only [mem_snoc]
        constructor
        · rintro ⟨h1, h2⟩
          refine ⟨fun h => h.elim h1 (fun h => hs h.symm), ?_⟩
          rintro ⟨b, hb | hb⟩
          · exact h2 ⟨b, hb⟩
          · exact this b hb.symm
        · rintro ⟨h1, h2⟩
          exact ⟨fun h => h1 (Or.inl h), fun ⟨b, hb⟩ => h2 ⟨b, Or.inl hb⟩⟩
      · cases o <;> first | exact absurd rfl ha | skip
        rename_i b
        rw [level_long]
        constructor
        · intro h; split at h <;> omega
        · intro h; exact absurd ⟨b, by simp⟩ h.2

/-- the checks after the loop, once there is something to trace -/
def core (e : Env) (s : St) : Option Conf :=
  (checkDaemon e s).bind fun s => (checkTime s).bind fun s => (checkHex s).bind fun s => (checkPaths s).bind fun s =>
      (checkFollow s).bind fun s =>
      if checkStats s = false ∨ (s.user = true ∧ e.root = false) then none
      else
        (checkKill e s ((checkSeccomp e s).1 && e.seccompOk)).bind fun k => (destOf s).bind fun d => (quietOf e s).map fun q =>
          ⟨d, s.openAppend, s.cflag, s.daemon, s.follow || s.optF, intrOf e s, s.stack, k,
            (checkSeccomp e s).1 && e.seccompOk, q, s.tFormat, s.tWidth, s.xflag, min s.yShort 2, s.shown,
            (checkSeccomp e s).2 ++ warns s⟩

/-- the variables after the checks of `-D`, `-t`, `-x`, `-y` and `-f` -/
def checked (l : List Opt) : St :=
  { stateOf l with
    daemon := if (last daemonArg l).getD 0 ≠ 0 then (last daemonArg l).getD 0 else l.count .daemon
    tFormat := if l.count .time ≠ 0 then some (decide (3 ≤ l.count .time)) else stampFormat (args stampArg l).reverse
    tWidth := if 2 ≤ l.count .time then 6 else stampWidth (args stampArg l)
    xflag := (last hexArg l).getD (min (l.count .hex) 2)
    fdSome := if l.count .paths ≠ 0 then true else (last fdArg l).getD false
    follow := if l.count .follow ≠ 0 then true else decide (.followForks ∈ l)
    separate := if l.count .follow ≠ 0 then decide (2 ≤ l.count .follow) else decide (.separately ∈ l) }

/-- the conflicts found by these -/
def Early (e : Env) (l : List Opt) : Prop :=
  ((∃ v, .daemonize v ∈ l) ∧ .daemon ∈ l) ∨
  (e.prog = false ∧ ((∃ v, .daemonize v ∈ l) ∨ .daemon ∈ l)) ∨
  3 < l.count .daemon ∨
  ((∃ t, .timestamps t ∈ l) ∧ .time ∈ l) ∨
  ((∃ v, .hexStr v ∈ l) ∧ .hex ∈ l) ∨
  ((∃ b, .decodeFds b ∈ l) ∧ .paths ∈ l) ∨
  (.followForks ∈ l ∧ .follow ∈ l) ∨
  (.separately ∈ l ∧ 2 ≤ l.count .follow)

/-- the checks of `-D`, `-t`, `-x`, `-y` and `-f` -/
def early (e : Env) (s : St) : Option St :=
  (checkDaemon e s).bind fun s => (checkTime s).bind fun s => (checkHex s).bind fun s => (checkPaths s).bind fun s => checkFollow s

theorem early_eq (e : Env) (l : List Opt) :
    (Early e l ∧ early e (stateOf l) = none) ∨ (¬ Early e l ∧ early e (stateOf l) = some (checked l)) := by
  unfold early Early
  rw [checkDaemon_eq e _ (daemon_le l), given_daemon, given_stamp, given_hex, given_fd]
  by_cases h1 : ((stateOf l).daemonLong ≠ 0 ∧ (stateOf l).daemon ≠ 0) ∨
      (e.prog = false ∧ ((stateOf l).daemonLong ≠ 0 ∨ (stateOf l).daemon ≠ 0)) ∨ 3 < (stateOf l).daemon
  · refine Or.inl ⟨?_, by rw [if_pos h1]; rfl⟩
    simp only [stateOf, ← given_count] at h1
    rcases h1 with h | h | h
    · exact Or.inl h
    · exact Or.inr (Or.inl h)
    · exact Or.inr (Or.inr (Or.inl h))
  · rw [if_neg h1, Option.bind_some, checkTime_eq]
    simp only [stateOf, ← given_count] at h1
    by_cases h2 : l.count .time ≠ 0 ∧ args stampArg l ≠ []
    · refine Or.inl ⟨Or.inr (Or.inr (Or.inr (Or.inl ⟨h2.2, (given_count _ _).mpr h2.1⟩))), ?_⟩
      rw [if_pos ⟨h2.1, by simpa [stateOf] using h2.2⟩]; rfl
    · rw [if_neg (by simpa [stateOf] using h2), Option.bind_some, checkHex_eq]
      by_cases h3 : last hexArg l ≠ none ∧ l.count .hex ≠ 0
      · refine Or.inl ⟨Or.inr (Or.inr (Or.inr (Or.inr (Or.inl ⟨h3.1, (given_count _ _).mpr h3.2⟩)))), ?_⟩
        rw [if_pos ⟨h3.1, by simp only [stateOf]; omega⟩]; rfl
      · rw [if_neg (by intro hh; exact h3 ⟨hh.1, by have := hh.2; simp only [stateOf] at this; omega⟩), Option.bind_some,
          checkPaths_eq]
        by_cases h4 : args fdArg l ≠ [] ∧ l.count .paths ≠ 0
        · refine Or.inl ⟨Or.inr (Or.inr (Or.inr (Or.inr (Or.inr (Or.inl ⟨h4.1, (given_count _ _).mpr h4.2⟩))))), ?_⟩
          rw [if_pos ⟨by simpa [stateOf] using h4.1, h4.2⟩]; rfl
        · rw [if_neg (by simpa [stateOf] using h4), Option.bind_some, checkFollow_eq]
          by_cases h5 : (.followForks ∈ l ∧ l.count .follow ≠ 0) ∨ (.separately ∈ l ∧ 2 ≤ l.count .follow)
          · refine Or.inl ⟨?_, by rw [if_pos (by simpa [stateOf] using h5)]⟩
            rcases h5 with h | h
            · exact Or.inr (Or.inr (Or.inr (Or.inr (Or.inr (Or.inr (Or.inl ⟨h.1, (given_count _ _).mpr h.2⟩))))))
            · exact Or.inr (Or.inr (Or.inr (Or.inr (Or.inr (Or.inr (Or.inr h))))))
          · refine Or.inr ⟨?_, by rw [if_neg (by simpa [stateOf] using h5)]; rfl⟩
            rintro (h | h | h | h | h | h | h | h)
            · exact h1 (Or.inl h)
            · exact h1 (Or.inr (Or.inl h))
            · exact h1 (Or.inr (Or.inr h))
            · exact h2 ⟨(given_count _ _).mp h.2, h.1⟩
            · exact h3 ⟨h.1, (given_count _ _).mp h.2⟩
            · exact h4 ⟨h.1, (given_count _ _).mp h.2⟩
            · exact h5 (Or.inl ⟨h.1, (given_count _ _).mp h.2⟩)
            · exact h5 (Or.inr h)

theorem core_early (e : Env) (s : St) : core e s = (early e s).bind fun s =>
      if checkStats s = false ∨ (s.user = true ∧ e.root = false) then none
      else
        (checkKill e s ((checkSeccomp e s).1 && e.seccompOk)).bind fun k => (destOf s).bind fun d => (quietOf e s).map fun q =>
          ⟨d, s.openAppend, s.cflag, s.daemon, s.follow || s.optF, intrOf e s, s.stack, k,
            (checkSeccomp e s).1 && e.seccompOk, q, s.tFormat, s.tWidth, s.xflag, min s.yShort 2, s.shown,
            (checkSeccomp e s).2 ++ warns s⟩ := by
  simp only [core, early, Option.bind_assoc]

/-- with one `-f` and `--output-separately` the second is lost -/
def Lost (l : List Opt) : Prop := l.count .follow = 1 ∧ .separately ∈ l

theorem checked_separate (l : List Opt) (h : ¬ Lost l) : (checked l).separate = true ↔ Separates l := by
  simp only [checked, Separates]
  by_cases h1 : l.count .follow ≠ 0
  · rw [if_pos h1, decide_eq_true_iff]
    constructor
    · exact Or.inl
    · rintro (h2 | h2)
      · exact h2
      · have : l.count .follow ≠ 1 := fun hh => h ⟨hh, h2⟩
        omega
  · rw [if_neg h1, decide_eq_true_iff]
    constructor
    · exact Or.inr
    · rintro (h2 | h2)
      · omega
      · exact h2

theorem checked_follow (l : List Opt) : (checked l).follow = true ↔ (.follow ∈ l ∨ .followForks ∈ l) := by
  simp only [checked]
  rw [given_count .follow]
  by_cases h1 : l.count .follow ≠ 0 <;> simp [h1]

theorem cflag_none (l : List Opt) : (checked l).cflag = .none ↔ ¬ Summary l := by
  simp only [checked, stateOf, Summary]
  by_cases h1 : Opt.onlyStats ∈ l <;> by_cases h2 : Opt.stats ∈ l <;> simp [h1, h2]

theorem checkStats_eq (l : List Opt) (h : ¬ Lost l) : checkStats (checked l) = false ↔
    (Separates l ∧ Summary l) ∨ (.wall ∈ l ∧ ¬ Summary l) ∨ (.columns ∈ l ∧ ¬ Summary l) := by
  rw [← checked_separate l h, ← cflag_none l]
  have hS : Summary l ↔ ¬ (checked l).cflag = .none := by rw [cflag_none, Classical.not_not]
  rw [hS]
  have hw : (checked l).wall = true ↔ .wall ∈ l := by simp [checked, stateOf]
  have hc : (checked l).columnsSet = true ↔ .columns ∈ l := by simp [checked, stateOf]
  rw [← hw, ← hc]
  unfold checkStats
  cases (checked l).separate <;> cases (checked l).wall <;> cases (checked l).columnsSet <;>
    by_cases hn : (checked l).cflag = .none <;> simp [hn]

theorem seccomp_fst (e : Env) (l : List Opt) (h : ¬ (attached l = 0 ∧ e.prog = false)) :
    (checkSeccomp e (checked l)).1 = true ↔ Filtering e l := by
  unfold checkSeccomp Filtering
  rw [← checked_follow l]
  have h1 : (checked l).seccomp = decide (.seccomp ∈ l) := rfl
  have h2 : (checked l).detachOn = decide (.detachOn ∈ l) := rfl
  have h3 : (checked l).limit = decide (.limit ∈ l) := rfl
  have h4 : (checked l).nprocs = attached l := rfl
  rw [h1, h2, h3, h4]
  have h5 : e.prog = false → attached l ≠ 0 := fun hp ha => h ⟨ha, hp⟩
  by_cases g1 : Opt.seccomp ∈ l <;> cases (checked l).follow <;> by_cases g2 : Opt.detachOn ∈ l <;>
    by_cases g3 : Opt.limit ∈ l <;> by_cases g4 : attached l = 0 <;> cases hp : e.prog <;> simp_all

theorem mem_warnIf (b : Bool) (w w' : Warn) : w ∈ warnIf b w' ↔ b = true ∧ w = w' := by
  unfold warnIf
  cases b <;> simp

theorem mem_ite_nil (p : Prop) [Decidable p] (w : Warn) (l : List Warn) : w ∈ (if p then l else []) ↔ p ∧ w ∈ l := by
  by_cases h : p <;> simp [h]

/-- the messages about `--seccomp-bpf` -/
theorem seccomp_snd (e : Env) (l : List Opt) (w : Warn) : w ∈ (checkSeccomp e (checked l)).2 ↔
    (w = .seccompFollow ∧ Warned e l .seccompFollow) ∨ (w = .seccompDetach ∧ Warned e l .seccompDetach) ∨
    (w = .seccompLimit ∧ Warned e l .seccompLimit) ∨ (w = .seccompAttach ∧ Warned e l .seccompAttach) := by
  unfold checkSeccomp Warned
  dsimp only
  have hf : (.follow ∉ l ∧ .followForks ∉ l) ↔ ¬ (.follow ∈ l ∨ .followForks ∈ l) := by simp
  rw [hf, ← checked_follow l]
  have h1 : (checked l).seccomp = decide (.seccomp ∈ l) := rfl
  have h2 : (checked l).detachOn = decide (.detachOn ∈ l) := rfl
  have h3 : (checked l).limit = decide (.limit ∈ l) := rfl
  have h4 : (checked l).nprocs = attached l := rfl
  rw [h1, h2, h3, h4]
  by_cases g1 : Opt.seccomp ∈ l <;> cases (checked l).follow <;> by_cases g2 : Opt.detachOn ∈ l <;>
    by_cases g3 : Opt.limit ∈ l <;> by_cases g4 : attached l = 0 <;> simp [g1, g2, g3, g4, Nat.pos_of_ne_zero]

theorem stack_ne (l : List Opt) : level l ≠ 0 ↔ (.stack ∈ l ∨ ∃ b, .stackTrace b ∈ l) := by
  rw [ne_eq, level_zero]
  constructor
  · intro h
    by_cases hs : Opt.stack ∈ l
    · exact Or.inl hs
    · exact Or.inr (Classical.byContradiction fun hb => h ⟨hs, hb⟩)
  · rintro h ⟨h1, h2⟩
    exact h.elim h1 h2

theorem checked_time (l : List Opt) : (checked l).tFormat.isSome = true ↔
    (.time ∈ l ∨ stampFormat (args stampArg l).reverse ≠ none) := by
  rw [given_count .time]
  simp only [checked]
  by_cases h : l.count .time ≠ 0
  · simp [h]
  · rw [if_neg h]
    simp only [h, false_or]
    cases stampFormat (args stampArg l).reverse <;> simp

theorem checked_fd (l : List Opt) : (checked l).fdSome = true ↔ (.paths ∈ l ∨ last fdArg l = some true) := by
  rw [given_count .paths]
  simp only [checked]
  by_cases h : l.count .paths ≠ 0
  · simp [h]
  · rw [if_neg h]
    simp only [h, false_or]
    cases last fdArg l <;> simp

theorem checked_only (l : List Opt) : (checked l).cflag = .only ↔ .onlyStats ∈ l := by
  simp only [checked, stateOf]
  by_cases h1 : Opt.onlyStats ∈ l <;> by_cases h2 : Opt.stats ∈ l <;> simp [h1, h2]

/-- the other messages -/
theorem warns_iff (e : Env) (l : List Opt) (h : ¬ Lost l) (w : Warn) :
    w ∈ (checkSeccomp e (checked l)).2 ++ warns (checked l) ↔ Warned e l w := by
  rw [List.mem_append, seccomp_snd]
  unfold warns
  simp only [List.mem_append, mem_warnIf, mem_ite_nil, checked_time, checked_fd, checked_only]
  have k1 : (checked l).optF = true ↔ .oldFollow ∈ l := by simp [checked, stateOf]
  have k2 : ((checked l).sortSet && decide ((checked l).cflag = .none)) = true ↔ (.sortBy ∈ l ∧ ¬ Summary l) := by
    rw [Bool.and_eq_true, decide_eq_true_iff, cflag_none]; simp [checked, stateOf]
  have k3 : (checked l).iflag = true ↔ .ip ∈ l := by simp [checked, stateOf]
  have k4 : decide ((checked l).stack ≠ 0) = true ↔ (.stack ∈ l ∨ ∃ b, .stackTrace b ∈ l) := by
    rw [decide_eq_true_iff, ← stack_ne]; rfl
  have k5 : (checked l).nflag = true ↔ .nr ∈ l := by simp [checked, stateOf]
  have k6 : (checked l).rflag = true ↔ .relative ∈ l := by simp [checked, stateOf]
  have k7 : (checked l).Tflag = true ↔ .times ∈ l := by simp [checked, stateOf]
  have k8 : ((checked l).separate && !((checked l).follow || (checked l).optF)) = true ↔ (Separates l ∧ ¬ Follows l) := by
    rw [Bool.and_eq_true, checked_separate l h, Bool.not_eq_true', ← Bool.not_eq_true, Bool.or_eq_true, checked_follow, k1, or_assoc]
    rfl
  have k9 : (checked l).openAppend = true ↔ .append ∈ l := by simp [checked, stateOf]
  have k10 : decide ((checked l).zflags > 1) = true ↔ 2 ≤ l.count .ok + l.count .failed := by
    rw [decide_eq_true_iff]; rfl
  have k11 : (decide ((checked l).stack = 0) && (checked l).frameLimit) = true ↔
      (.frameLimit ∈ l ∧ .stack ∉ l ∧ ¬ ∃ b, .stackTrace b ∈ l) := by
    rw [Bool.and_eq_true, decide_eq_true_iff, ← level_zero l, and_comm]; simp [checked, stateOf]
  have k12 : (checked l).out = none ↔ last outArg l = none := Iff.rfl
  rw [k1, k2, k3, k4, k5, k6, k7, k8, k9, k10, k11, k12]
  cases w <;> simp only [reduceCtorEq, and_false, false_and, or_false, false_or, and_true, true_and, Warned, and_assoc,
    and_comm, and_left_comm, Warn.noEffect.injEq]
  case noEffect o =>
    cases o <;> simp [NoEffect]

theorem conflict_iff (e : Env) (l : List Opt) : Conflict e l ↔
    (e.prog = false ∧ .argv0 ∈ l) ∨ Early e l ∨ (.quiet ∈ l ∧ .quietly ∈ l) ∨
    ((Separates l ∧ Summary l) ∨ (.wall ∈ l ∧ ¬ Summary l) ∨ (.columns ∈ l ∧ ¬ Summary l)) ∨
    (.user ∈ l ∧ e.root = false) ∨ (.killOnExit ∈ l ∧ (0 < attached l ∨ e.exitKill = false)) ∨
    (Separates l ∧ ∃ n, last outArg l = some n ∧ (Piped n ∨ 4084 ≤ n.length)) := by
  unfold Conflict Early
  simp only [or_assoc]

theorem goes_iff (l : List Opt) (h : ¬ Lost l) (d : Dest) (hd : GoesWith (checked l).separate (checked l).out d) : Goes l d := by
  have hs := checked_separate l h
  rcases hd with ⟨h1, h2⟩ | ⟨n, h1, h2⟩
  · exact Or.inl ⟨h1, h2⟩
  · refine Or.inr ⟨n, h1, ?_⟩
    rcases h2 with h2 | ⟨h2, h3, h4⟩ | ⟨h2, h3, h4⟩
    · exact Or.inl h2
    · exact Or.inr (Or.inl ⟨h2, fun hh => (by rw [hs.mpr hh] at h3; cases h3), h4⟩)
    · exact Or.inr (Or.inr ⟨h2, hs.mp h3, h4⟩)

theorem daemon_eq (l : List Opt) :
    (checked l).daemon = (last daemonArg l).getD (l.count .daemon) := by
  simp only [checked]
  by_cases h1 : (last daemonArg l).getD 0 ≠ 0
  · rw [if_pos h1]
    cases h2 : last daemonArg l with
    | none => rw [h2] at h1; exact absurd rfl h1
    | some v => rfl
  · rw [if_neg h1]
    cases h2 : last daemonArg l with
    | none => rfl
    | some v =>
      obtain ⟨o, hm, ho⟩ := last_mem _ _ _ h2
      cases o <;> simp [daemonArg] at ho
      exact absurd ((given_daemon l).mp ⟨_, hm⟩) h1

theorem intr_eq (e : Env) (l : List Opt) : intrOf e (checked l) = (last intrArg l).getD
    (if (checked l).daemon ≠ 0 then 4 else if last outArg l ≠ none ∧ e.prog = true then 3 else 2) := by
  unfold intrOf
  have h1 : (checked l).intr = (last intrArg l).getD 0 := rfl
  have h2 : (checked l).out = last outArg l := rfl
  rw [h1, h2]
  cases h : last intrArg l with
  | none => simp
  | some v =>
    obtain ⟨o, hm, ho⟩ := last_mem _ _ _ h
    cases o <;> simp [intrArg] at ho
    rw [if_pos (by simp; omega)]; rfl

theorem stampWidth_none (l : List Opt) (h : args stampArg l = []) : stampWidth (args stampArg l) = 0 := by rw [h]; rfl

theorem core_eq (e : Env) (l : List Opt) (h : ¬ Lost l) (ha : ¬ (attached l = 0 ∧ e.prog = false))
    (hv : ¬ (e.prog = false ∧ .argv0 ∈ l)) (hc : ¬ (.onlyStats ∈ l ∧ .stats ∈ l)) :
    (Conflict e l ∧ core e (stateOf l) = none) ∨
    (¬ Conflict e l ∧ ∃ c, core e (stateOf l) = some c ∧ Told e l c) := by
  rw [conflict_iff, core_early]
  rcases early_eq e l with ⟨h1, h2⟩ | ⟨h1, h2⟩
  · exact Or.inl ⟨Or.inr (Or.inl h1), by rw [h2]; rfl⟩
  rw [h2, Option.bind_some]
  have hu : (checked l).user = true ↔ .user ∈ l := by simp [checked, stateOf]
  have hk : (checked l).kill = true ↔ .killOnExit ∈ l := by simp [checked, stateOf]
  have hq : (checked l).quietUpdated = true ↔ .quiet ∈ l := by simp [checked, stateOf]
  have hn : (checked l).nprocs = attached l := rfl
  have hqs : (checked l).qShort = l.count .quietly := rfl
  by_cases h3 : checkStats (checked l) = false ∨ ((checked l).user = true ∧ e.root = false)
  · refine Or.inl ⟨?_, if_pos h3⟩
    rw [checkStats_eq l h, hu] at h3
    rcases h3 with h3 | h3
    · exact Or.inr (Or.inr (Or.inr (Or.inl h3)))
    · exact Or.inr (Or.inr (Or.inr (Or.inr (Or.inl h3))))
  rw [if_neg h3, checkKill_eq]
  rw [checkStats_eq l h, hu] at h3
  by_cases h4 : (checked l).kill = true ∧ (0 < (checked l).nprocs ∨ e.exitKill = false)
  · refine Or.inl ⟨?_, by rw [if_pos h4]; rfl⟩
    rw [hk, hn] at h4
    exact Or.inr (Or.inr (Or.inr (Or.inr (Or.inr (Or.inl h4)))))
  rw [if_neg h4, Option.bind_some]
  rcases destOf_eq (checked l) with ⟨h5, h6, h7⟩ | ⟨h6, d, h5, h7⟩
  · refine Or.inl ⟨?_, by rw [h5]; rfl⟩
    rw [checked_separate l h] at h6
    exact Or.inr (Or.inr (Or.inr (Or.inr (Or.inr (Or.inr ⟨h6, h7⟩)))))
  rw [h5, Option.bind_some, quietOf_eq]
  by_cases h8 : (checked l).quietUpdated = true ∧ (checked l).qShort ≠ 0
  · refine Or.inl ⟨?_, by rw [if_pos h8]; rfl⟩
    rw [hq, hqs, ← given_count] at h8
    exact Or.inr (Or.inr (Or.inl h8))
  rw [if_neg h8, Option.map_some]
  refine Or.inr ⟨?_, _, rfl, ?_⟩
  · rintro (g | g | g | g | g | g | g)
    · exact hv g
    · exact h1 g
    · exact h8 ⟨hq.mpr g.1, (given_count _ _).mp g.2⟩
    · exact h3 (Or.inl g)
    · exact h3 (Or.inr g)
    · exact h4 ⟨hk.mpr g.1, g.2⟩
    · exact h6 ⟨(checked_separate l h).mpr g.1, g.2⟩
  · have hsc : ((checkSeccomp e (checked l)).1 && e.seccompOk) = true ↔ Filtering e l ∧ e.seccompOk = true := by
      rw [Bool.and_eq_true, seccomp_fst e l ha]
    constructor <;> dsimp only
    case dest => exact goes_iff l h d h7
    case append => simp [checked, stateOf]
    case only => exact checked_only l
    case both =>
      simp only [checked, stateOf]
      by_cases g1 : Opt.onlyStats ∈ l <;> by_cases g2 : Opt.stats ∈ l <;> simp [g1, g2]
      exact hc ⟨g1, g2⟩
    case daemon => exact daemon_eq l
    case follow =>
      rw [Bool.or_eq_true, checked_follow, or_assoc]
      simp [checked, stateOf, Follows]
    case intr => exact intr_eq e l
    case stack => rfl
    case seccomp => exact hsc
    case kill =>
      rw [Bool.or_eq_true, hk, Bool.and_eq_true, Bool.and_eq_true, decide_eq_true_iff, hn, and_assoc]
    case quiet =>
      simp only [hq, hqs, ← given_count]
      rfl
    case tFormat =>
      simp only [checked, ← given_count]
    case tWidth =>
      simp only [checked]
      by_cases g : Opt.time ∈ l
      · rw [if_pos g]
        have g' := (given_count _ _).mp g
        have : args stampArg l = [] := Classical.byContradiction fun hh =>
          h1 (Or.inr (Or.inr (Or.inr (Or.inl ⟨(given_stamp l).mpr hh, g⟩))))
        rw [stampWidth_none l this]
        by_cases g3 : l.count .time = 1
        · rw [if_pos g3, if_neg (by omega)]
        · rw [if_neg g3, if_pos (by omega)]
      · have g' : l.count .time = 0 := Classical.byContradiction fun hh => g ((given_count _ _).mpr hh)
        rw [if_neg g, if_neg (by omega)]
    case hex => rfl
    case paths => rfl
    case shown => rfl
    case warns => exact warns_iff e l h

/-! ### C97 -/

/-- C97, for options that are known, except one `-f` together with `--output-separately`: `-V` shows the version whatever else is given;
without a process or a program strace ends, with a tip if asked; options that exclude each other end strace; and otherwise strace runs
with what the options say. -/
theorem init_partial (e : Env) (l : List Opt) (hf : Fine l) (h : ¬ (l.count .follow = 1 ∧ .separately ∈ l)) :
    (.version ∈ l → init e l = .version) ∧
    (.version ∉ l → attached l = 0 → e.prog = false →
      init e l = if last tipArg l = some true then .tip else .died) ∧
    (.version ∉ l → (0 < attached l ∨ e.prog = true) → Conflict e l → init e l = .died) ∧
    (.version ∉ l → (0 < attached l ∨ e.prog = true) → ¬ Conflict e l → ∃ c, init e l = .run c ∧ Told e l c) := by
  have hi : init e l = finish e (stateOf l) := by
    unfold init; rw [parse_fine l hf]; rfl
  have hfin : .version ∉ l → (0 < attached l ∨ e.prog = true) → ¬ (e.prog = false ∧ .argv0 ∈ l) →
      init e l = orDie (core e (stateOf l)) := by
    intro hv ha hz
    rw [hi]
    unfold finish
    rw [if_neg (by simpa [stateOf] using hv), if_neg, if_neg (by simpa [stateOf] using hz)]
    · rfl
    · rintro ⟨h1, h2⟩
      have h1' : attached l = 0 := h1
      rcases ha with ha | ha
      · omega
      · rw [ha] at h2; cases h2
  have hat : (0 < attached l ∨ e.prog = true) → ¬ (attached l = 0 ∧ e.prog = false) := by
    rintro (ha | ha) ⟨h1, h2⟩
    · omega
    · rw [ha] at h2; cases h2
  refine ⟨fun hv => ?_, fun hv ha hp => ?_, fun hv ha hc => ?_, fun hv ha hc => ?_⟩
  · rw [hi]; unfold finish
    rw [if_pos (by simpa [stateOf] using hv)]
  · rw [hi]; unfold finish
    rw [if_neg (by simpa [stateOf] using hv), if_pos ⟨ha, hp⟩]
    have : (stateOf l).tips = true ↔ last tipArg l = some true := by
      simp only [stateOf]; cases last tipArg l <;> simp
    simp only [this]
  · by_cases hz : e.prog = false ∧ .argv0 ∈ l
    · rw [hi]; unfold finish
      rw [if_neg (by simpa [stateOf] using hv), if_neg, if_pos (by simpa [stateOf] using hz)]
      exact fun hh => hat ha hh
    · rw [hfin hv ha hz]
      rcases core_eq e l h (hat ha) hz hf.2.2.1 with ⟨_, h2⟩ | ⟨h2, _⟩
      · rw [h2]; rfl
      · exact absurd hc h2
  · have hz : ¬ (e.prog = false ∧ .argv0 ∈ l) := fun hh => hc (Or.inl hh)
    rw [hfin hv ha hz]
    rcases core_eq e l h (hat ha) hz hf.2.2.1 with ⟨h2, _⟩ | ⟨_, c, h2, h3⟩
    · exact absurd h2 hc
    · exact ⟨c, by rw [h2]; rfl, h3⟩

/-- Options that are not known, `-c` with `-C` and more than `-kk` end strace before any other check, unless `-h` comes before: the
first of these counts. -/
theorem init_stops (e : Env) (l : List Opt) (h : ¬ Fine l) :
    (init e l = .help ∧ ∃ p q, l = p ++ .help :: q ∧ Fine p) ∨
    (init e l = .died ∧ ∃ p o q, l = p ++ o :: q ∧ Fine p ∧ ¬ Fine (p ++ [o]) ∧ o ≠ .help) := by
  unfold init
  rcases parse_not l h with ⟨h1, h2⟩ | ⟨h1, h2⟩
  · exact Or.inl ⟨by rw [h1]; rfl, h2⟩
  · exact Or.inr ⟨by rw [h1]; rfl, h2⟩

/-! ### The order of options -/

theorem args_filter {α : Type} (f : Opt → Option α) (l : List Opt) (hf : ∀ o, ordered o = false → f o = none) :
    args f (l.filter ordered) = args f l := by
  unfold args
  induction l with
  | nil => rfl
  | cons o r ih =>
    by_cases h : ordered o = true
    · rw [List.filter_cons_of_pos h, List.filterMap_cons, List.filterMap_cons, ih]
    · rw [List.filter_cons_of_neg h, ih, List.filterMap_cons, hf o (by simpa using h)]

theorem args_same {α : Type} (f : Opt → Option α) (l l' : List Opt) (h : l.filter ordered = l'.filter ordered)
    (hf : ∀ o, ordered o = false → f o = none) : args f l = args f l' := by
  rw [← args_filter f l hf, ← args_filter f l' hf, h]

theorem level_filter (l : List Opt) : level (l.filter ordered) = level l := by
  induction l using List.reverseRecOn with
  | nil => rfl
  | append_singleton l o ih =>
    rw [List.filter_append]
    by_cases hs : o = .stack
    · subst hs
      show level (l.filter ordered ++ [.stack]) = _
      rw [level_stack, level_stack, ih]
    · by_cases ha : stackArg o = none
      · rw [level_other l o ha hs]
        by_cases ho : ordered o = true
        · rw [List.filter_cons_of_pos ho]
          show level (l.filter ordered ++ [o]) = _
          rw [level_other _ o ha hs, ih]
        · rw [List.filter_cons_of_neg ho]
          simpa using ih
      · cases o <;> first | exact absurd rfl ha | skip
        rename_i b
        show level (l.filter ordered ++ [.stackTrace b]) = _
        rw [level_long, level_long]

theorem prefix_filter (f : Opt → Bool) (l q : List Opt) (h : q <+: l.filter f) : ∃ p, p <+: l ∧ p.filter f = q := by
  induction l generalizing q with
  | nil => exact ⟨[], List.nil_prefix, by simpa using h⟩
  | cons o r ih =>
    by_cases ho : f o = true
    · rw [List.filter_cons_of_pos ho] at h
      cases q with
      | nil => exact ⟨[], List.nil_prefix, rfl⟩
      | cons x q =>
        obtain ⟨h1, h2⟩ := List.cons_prefix_cons.mp h
        obtain ⟨p, hp, hq⟩ := ih q h2
        exact ⟨o :: p, List.cons_prefix_cons.mpr ⟨rfl, hp⟩, by rw [List.filter_cons_of_pos ho, hq, h1]⟩
    · rw [List.filter_cons_of_neg ho] at h
      obtain ⟨p, hp, hq⟩ := ih q h
      exact ⟨o :: p, List.cons_prefix_cons.mpr ⟨rfl, hp⟩, by rw [List.filter_cons_of_neg ho, hq]⟩

theorem fine_same (l l' : List Opt) (hp : l.Perm l') (h : l.filter ordered = l'.filter ordered) (hf : Fine l) : Fine l' := by
  obtain ⟨h1, h2, h3, h4⟩ := hf
  refine ⟨fun hh => h1 (hp.mem_iff.mpr hh), fun hh => h2 (hp.mem_iff.mpr hh),
    fun hh => h3 ⟨hp.mem_iff.mpr hh.1, hp.mem_iff.mpr hh.2⟩, fun p hpr => ?_⟩
  have : p.filter ordered <+: l.filter ordered := by rw [h]; exact hpr.filter ordered
  obtain ⟨q, hq, hqf⟩ := prefix_filter ordered l _ this
  rw [← level_filter p, ← hqf, level_filter q]
  exact h4 q hq

theorem stateOf_same (l l' : List Opt) (hp : l.Perm l') (h : l.filter ordered = l'.filter ordered) : stateOf l = stateOf l' := by
  have hm' : ∀ o, (o ∈ l) = (o ∈ l') := fun o => propext hp.mem_iff
  have hc : ∀ o, l.count o = l'.count o := fun o => hp.count_eq o
  have ha : attached l = attached l' := List.Perm.sum_nat (hp.filterMap pidsArg)
  have hl : level l = level l' := by rw [← level_filter l, ← level_filter l', h]
  have a1 : args outArg l = args outArg l' := args_same _ _ _ h (by intro o; cases o <;> simp [ordered, outArg])
  have a2 : args intrArg l = args intrArg l' := args_same _ _ _ h (by intro o; cases o <;> simp [ordered, intrArg])
  have a3 : args daemonArg l = args daemonArg l' := args_same _ _ _ h (by intro o; cases o <;> simp [ordered, daemonArg])
  have a4 : args hexArg l = args hexArg l' := args_same _ _ _ h (by intro o; cases o <;> simp [ordered, hexArg])
  have a5 : args fdArg l = args fdArg l' := args_same _ _ _ h (by intro o; cases o <;> simp [ordered, fdArg])
  have a6 : args tipArg l = args tipArg l' := args_same _ _ _ h (by intro o; cases o <;> simp [ordered, tipArg])
  have a7 : args stampArg l = args stampArg l' := args_same _ _ _ h (by intro o; cases o <;> simp [ordered, stampArg])
  have a8 : args shownArg l = args shownArg l' := args_same _ _ _ h (by intro o; cases o <;> simp [ordered, shownArg])
  unfold stateOf
  simp only [last, a1, a2, a3, a4, a5, a6, a7, a8, hc, ha, hl, hm']

/-- C97: the order of options does not matter, except among those of which the last one counts. -/
theorem init_order (e : Env) (l l' : List Opt) (hp : l.Perm l') (h : l.filter ordered = l'.filter ordered) (hf : Fine l) :
    init e l = init e l' := by
  unfold init
  rw [parse_fine l hf, parse_fine l' (fine_same l l' hp h hf), stateOf_same l l' hp h]

/-! ### What the full claim lacks -/

/-- one `-f` with `--output-separately` and `-o` -/
def lostCase : List Opt := [.follow, .separately, .out [102]]

/-- Not all options mean what they say: `--output-separately` is lost after one `-f`, all processes share the file. -/
theorem separately_lost : ∃ (e : Env) (l : List Opt) (c : Conf), Fine l ∧ ¬ Conflict e l ∧ .version ∉ l ∧ e.prog = true ∧
    Separates l ∧ init e l = .run c ∧ c.dest = .file [102] ∧ ¬ Goes l c.dest := by
  refine ⟨⟨true, false, true, true⟩, lostCase, ⟨.file [102], false, .none, 0, true, 3, 0, false, false, .level 1, none, 0, 0, 0,
    .selected, []⟩, ⟨by decide +kernel, by decide +kernel, by decide +kernel, ?_⟩, ?_, by decide +kernel, rfl,
    Or.inr (by decide +kernel), by decide +kernel, rfl, ?_⟩
  · rintro p ⟨q, hq⟩
    have h1 : Opt.stack ∉ p := fun h => by
      have : Opt.stack ∈ lostCase := by rw [← hq]; exact List.mem_append_left _ h
      revert this; decide +kernel
    have h2 : ¬ ∃ b, Opt.stackTrace b ∈ p := by
      rintro ⟨b, h⟩
      have : Opt.stackTrace b ∈ lostCase := by rw [← hq]; exact List.mem_append_left _ h
      revert this; simp [lostCase]
    rw [(level_zero p).mpr ⟨h1, h2⟩]; omega
  · have ho : last outArg lostCase = some [102] := rfl
    simp [Conflict, lostCase, Summary]
    rintro _ x hx
    have hx' : last outArg lostCase = some x := hx
    rw [ho] at hx'
    cases hx'
    simp [Piped]
  · rintro (⟨_, h⟩ | ⟨n, _, ⟨r, _, h⟩ | ⟨_, h, _⟩ | ⟨_, _, h⟩⟩)
    · cases h
    · cases h
    · exact h (Or.inr (by decide +kernel))
    · cases h

/-- `-ff` and `--follow-forks --output-separately` do what they say -/
example : (init ⟨true, false, true, true⟩ [.follow, .follow, .out [102]]) =
    init ⟨true, false, true, true⟩ [.followForks, .separately, .out [102]] := by decide +kernel

/-! ### The hypotheses are met -/

/-- Many options at once: all are known, and none excludes another. -/
example : ∃ (e : Env) (l : List Opt) (c : Conf), Fine l ∧ ¬ (l.count .follow = 1 ∧ .separately ∈ l) ∧ .version ∉ l ∧
    (0 < attached l ∨ e.prog = true) ∧ ¬ Conflict e l ∧ init e l = .run c ∧ c.seccomp = true ∧ c.warns = [.noEffect .ip] := by
  refine ⟨⟨true, false, true, true⟩, [.seccomp, .follow, .ip, .onlyStats, .out [102], .out [124, 99]],
    ⟨.pipe [99], false, .only, 0, true, 3, 0, true, true, .level 1, none, 0, 0, 0, .selected, [.noEffect .ip]⟩,
    ⟨by decide +kernel, by decide +kernel, by decide +kernel, ?_⟩, by decide +kernel, by decide +kernel, Or.inr rfl, ?_,
    by decide +kernel, rfl, rfl⟩
  · rintro p ⟨q, hq⟩
    have h1 : Opt.stack ∉ p := fun h => by
      have := List.mem_append_left q h
      rw [hq] at this
      revert this; decide +kernel
    have h2 : ¬ ∃ b, Opt.stackTrace b ∈ p := by
      rintro ⟨b, h⟩
      have := List.mem_append_left q h
      rw [hq] at this
      revert this; simp
    rw [(level_zero p).mpr ⟨h1, h2⟩]; omega
  · simp [Conflict, Summary, Separates]

/-- A conflict: `-D` without a program. -/
example : init ⟨false, false, true, true⟩ [.attach 1, .daemon] = .died ∧ Conflict ⟨false, false, true, true⟩ [.attach 1, .daemon] :=
  ⟨by decide +kernel, Or.inr (Or.inr (Or.inl ⟨rfl, Or.inr (by decide +kernel)⟩))⟩

/-- Two orders of the same options. -/
example : [Opt.follow, .out [1], .ip, .out [2]].Perm [.out [1], .ip, .out [2], .follow] ∧
    [Opt.follow, .out [1], .ip, .out [2]].filter ordered = [.out [1], .ip, .out [2], .follow].filter ordered :=
  ⟨by decide +kernel, by decide +kernel⟩

/-- `-kkk` is one too many. -/
example : ¬ Fine [.stack, .stack, .stack] := fun h => absurd (h.2.2.2 _ (List.prefix_refl _)) (by decide +kernel)

end Strace.Opt
