import Verif.Opt.Spec
import Mathlib.Tactic.Common
import Mathlib.Data.List.Induction
/-!
# Options: the variables after the loop, in terms of the list of options
-/
namespace Strace.Opt

theorem end_bind_assoc {α β γ : Type} (x : End α) (f : α → End β) (g : β → End γ) :
    (x.bind f).bind g = x.bind fun a => (f a).bind g := by cases x <;> rfl

theorem parse_append (s : St) (l r : List Opt) : parse s (l ++ r) = (parse s l).bind fun s => parse s r := by
  induction l generalizing s with
  | nil => rfl
  | cons o l ih =>
    show (step s o).bind (fun s => parse s (l ++ r)) = ((step s o).bind fun s => parse s l).bind _
    rw [end_bind_assoc]
    congr 1
    funext s
    exact ih s

theorem parse_snoc (s : St) (l : List Opt) (o : Opt) : parse s (l ++ [o]) = (parse s l).bind fun s => step s o := by
  rw [parse_append]
  congr 1
  funext s
  show (step s o).bind (fun s => .run s) = step s o
  cases step s o <;> rfl

/-- the variables after the loop -/
def stateOf (l : List Opt) : St where
  openAppend := decide (.append ∈ l)
  detachOn := decide (.detachOn ∈ l)
  cflag := if .onlyStats ∈ l then .only else if .stats ∈ l then .both else .none
  daemon := l.count .daemon
  daemonLong := (last daemonArg l).getD 0
  followShort := l.count .follow
  follow := decide (.followForks ∈ l)
  separate := decide (.separately ∈ l)
  optF := decide (.oldFollow ∈ l)
  iflag := decide (.ip ∈ l)
  intr := (last intrArg l).getD 0
  stack := level l
  frameLimit := decide (.frameLimit ∈ l)
  kill := decide (.killOnExit ∈ l)
  nflag := decide (.nr ∈ l)
  out := last outArg l
  nprocs := attached l
  qShort := l.count .quietly
  quietUpdated := decide (.quiet ∈ l)
  rflag := decide (.relative ∈ l)
  sortSet := decide (.sortBy ∈ l)
  tShort := l.count .time
  tLong := decide (args stampArg l ≠ [])
  tFormat := stampFormat (args stampArg l).reverse
  tWidth := stampWidth (args stampArg l)
  Tflag := decide (.times ∈ l)
  user := decide (.user ∈ l)
  columnsSet := decide (.columns ∈ l)
  version := decide (.version ∈ l)
  wall := decide (.wall ∈ l)
  xflag := min (l.count .hex) 2
  xLong := last hexArg l
  yShort := l.count .paths
  fdUpdated := decide (args fdArg l ≠ [])
  fdSome := (last fdArg l).getD false
  zflags := l.count .ok + l.count .failed
  shown := (last shownArg l).getD .selected
  seccomp := decide (.seccomp ∈ l)
  limit := decide (.limit ∈ l)
  tips := (last tipArg l).getD false
  argv0 := decide (.argv0 ∈ l)
  showPid := decide (.showPid ∈ l)

theorem args_snoc {α : Type} (f : Opt → Option α) (l : List Opt) (o : Opt) : args f (l ++ [o]) = args f l ++ (f o).toList := by
  unfold args
  rw [List.filterMap_append]
  cases h : f o <;> simp [h]

theorem args_none {α : Type} (f : Opt → Option α) (l : List Opt) (o : Opt) (h : f o = none) : args f (l ++ [o]) = args f l := by
  rw [args_snoc, h]; simp

theorem args_some {α : Type} (f : Opt → Option α) (l : List Opt) (o : Opt) (a : α) (h : f o = some a) :
    args f (l ++ [o]) = args f l ++ [a] := by
  rw [args_snoc, h]; rfl

theorem last_none {α : Type} (f : Opt → Option α) (l : List Opt) (o : Opt) (h : f o = none) : last f (l ++ [o]) = last f l := by
  rw [last, args_none f l o h, last]

theorem last_some {α : Type} (f : Opt → Option α) (l : List Opt) (o : Opt) (a : α) (h : f o = some a) :
    last f (l ++ [o]) = some a := by
  rw [last, args_some f l o a h, List.getLast?_concat]

theorem level_other (l : List Opt) (o : Opt) (h : stackArg o = none) (h' : o ≠ .stack) : level (l ++ [o]) = level l := by
  unfold level
  rw [last_none _ _ _ h, List.reverse_append]
  simp [h, h']

theorem level_stack (l : List Opt) : level (l ++ [.stack]) = level l + 1 := by
  unfold level
  rw [last_none _ _ _ rfl, List.reverse_append]
  simp [stackArg]
  omega

theorem level_long (l : List Opt) (b : Bool) : level (l ++ [.stackTrace b]) = if b = true then 2 else 1 := by
  unfold level
  rw [last_some stackArg l (.stackTrace b) _ rfl, List.reverse_append]
  simp [stackArg]

theorem mem_snoc (l : List Opt) (o x : Opt) : x ∈ l ++ [o] ↔ x ∈ l ∨ x = o := by simp

theorem count_snoc (l : List Opt) (o x : Opt) : (l ++ [o]).count x = l.count x + if o = x then 1 else 0 := by
  rw [List.count_append, List.count_singleton]
  simp [beq_iff_eq]

theorem level_nil : level [] = 0 := rfl

theorem stampFormat_snoc (l : List Ts) (t : Ts) :
    stampFormat (l ++ [t]).reverse = t.format.getD (some ((stampFormat l.reverse).getD false)) := by
  rw [List.reverse_append]; rfl

theorem stampWidth_snoc (l : List Ts) (t : Ts) : stampWidth (l ++ [t]) = t.width.getD (stampWidth l) := by
  unfold stampWidth
  rw [List.filterMap_append]
  cases h : t.width <;> simp [h]

theorem stateOf_nil : stateOf [] = {} := by decide +kernel

/-- options that add nothing to a field -/
theorem step_stateOf (l : List Opt) (o : Opt) (s : St) (h : step (stateOf l) o = .run s)
    (hc : ¬ (.onlyStats ∈ l ++ [o] ∧ .stats ∈ l ++ [o])) : s = stateOf (l ++ [o]) := by
  cases o
  all_goals
    simp only [step] at h
    first
      | (cases h; done)
      | (cases h
         simp (config := { decide := true }) [stateOf, mem_snoc, count_snoc, last, args_snoc, stackArg, outArg, intrArg, daemonArg, hexArg, fdArg, tipArg,
      stampArg, pidsArg, shownArg, attached, level_other])
      | skip
  all_goals first
    | exact (level_other l _ rfl (by simp)).symm
    | exact (level_long l _).symm
    | (refine ⟨(level_other l _ rfl (by simp)).symm, ?_⟩)
    | skip
  case onlyStats | stats =>
    split at h
    · cases h
    · cases h
      simp only [mem_snoc] at hc
      simp (config := { decide := true }) [stateOf, mem_snoc, count_snoc, last, args_snoc, stackArg, outArg, intrArg, daemonArg,
        hexArg, fdArg, tipArg, stampArg, pidsArg, shownArg, attached]
      first
        | exact (level_other l _ rfl (by simp)).symm
        | exact ⟨fun h => hc ⟨Or.inl h, Or.inr trivial⟩, (level_other l _ rfl (by simp)).symm⟩
  case stack =>
    split at h
    · rename_i h0
      cases h
      replace h0 : level l = 0 := h0
      simp (config := { decide := true }) [stateOf, mem_snoc, count_snoc, last, args_snoc, stackArg, outArg, intrArg, daemonArg,
        hexArg, fdArg, tipArg, stampArg, pidsArg, shownArg, attached, level_stack, h0]
    · split at h
      · rename_i h0
        cases h
        replace h0 : level l = 1 := h0
        simp (config := { decide := true }) [stateOf, mem_snoc, count_snoc, last, args_snoc, stackArg, outArg, intrArg, daemonArg,
          hexArg, fdArg, tipArg, stampArg, pidsArg, shownArg, attached, level_stack, h0]
      · cases h
  case timestamps t =>
    cases hf : t.format <;> cases hw : t.width <;>
      simp [setTs, hf, hw, stampWidth_snoc, stampFormat, level_other l (.timestamps t) rfl (by simp)]
    all_goals
      split
      · rename_i h; simp [h, stampFormat]
      · rename_i h
        cases hs : stampFormat (args stampArg l).reverse with
        | none => exact absurd hs h
        | some v => simp [stampFormat]
  all_goals omega

/-! ### The loop -/

theorem fine_init (l : List Opt) (o : Opt) (h : Fine (l ++ [o])) : Fine l := by
  obtain ⟨h1, h2, h3, h4⟩ := h
  simp only [mem_snoc, not_or] at h1 h2 h3
  exact ⟨h1.1, h2.1, fun h => h3 ⟨Or.inl h.1, Or.inl h.2⟩, fun p hp => h4 p (hp.trans (List.prefix_append l [o]))⟩

theorem fine_nil : Fine [] := by
  refine ⟨by simp, by simp, by simp, ?_⟩
  intro p hp
  rw [List.prefix_nil.mp hp, level_nil]
  omega

/-- an option is taken exactly if the list stays fine -/
theorem step_fine (l : List Opt) (o : Opt) (h : Fine l) :
    (Fine (l ++ [o]) ∧ ∃ s, step (stateOf l) o = .run s) ∨
    (¬ Fine (l ++ [o]) ∧ step (stateOf l) o = if o = .help then .help else .died) := by
  have hl : level l ≤ 2 := h.2.2.2 l (List.prefix_refl l)
  have hpre : level (l ++ [o]) ≤ 2 → ∀ p, p <+: l ++ [o] → level p ≤ 2 := by
    intro hn p hp
    rcases List.prefix_concat_iff.mp hp with hp | hp
    · rw [hp]; exact hn
    · exact h.2.2.2 p hp
  have hlev : o ≠ .stack → level (l ++ [o]) ≤ 2 := by
    intro ho
    by_cases hs : stackArg o = none
    · rw [level_other l o hs ho]; exact hl
    · cases o <;> first | exact absurd rfl hs | skip
      rw [level_long]; split <;> omega
  have good : o ≠ .bad → o ≠ .help → o ≠ .onlyStats → o ≠ .stats → o ≠ .stack → Fine (l ++ [o]) := by
    intro h1 h2 h3 h4 h5
    refine ⟨?_, ?_, ?_, hpre (hlev h5)⟩
    · rw [mem_snoc]; rintro (hh | hh); exact h.1 hh; exact h1 hh.symm
    · rw [mem_snoc]; rintro (hh | hh); exact h.2.1 hh; exact h2 hh.symm
    · simp only [mem_snoc]
      rintro ⟨hh | hh, hk | hk⟩
      · exact h.2.2.1 ⟨hh, hk⟩
      · exact h4 hk.symm
      · exact h3 hh.symm
      · exact h3 hh.symm
  cases o
  case bad => exact Or.inr ⟨fun hf => hf.1 (by simp), rfl⟩
  case help => exact Or.inr ⟨fun hf => hf.2.1 (by simp), rfl⟩
  case stack =>
    by_cases h2 : level l = 2
    · refine Or.inr ⟨fun hf => ?_, ?_⟩
      · have := hf.2.2.2 _ (List.prefix_refl _)
        rw [level_stack] at this; omega
      · show (if level l = 0 then _ else if level l = 1 then _ else _) = _
        rw [h2]; rfl
    · refine Or.inl ⟨⟨?_, ?_, ?_, hpre (by rw [level_stack]; omega)⟩, ?_⟩
      · rw [mem_snoc]; rintro (hh | hh); exact h.1 hh; cases hh
      · rw [mem_snoc]; rintro (hh | hh); exact h.2.1 hh; cases hh
      · simp only [mem_snoc]
        rintro ⟨hh | hh, hk | hk⟩
        · exact h.2.2.1 ⟨hh, hk⟩
        all_goals first | cases hh; done | cases hk; done
      · show ∃ s, (if level l = 0 then _ else if level l = 1 then _ else _) = _
        by_cases h0 : level l = 0
        · rw [if_pos h0]; exact ⟨_, rfl⟩
        · rw [if_neg h0, if_pos (by omega)]; exact ⟨_, rfl⟩
  case onlyStats =>
    by_cases hm : Opt.stats ∈ l
    · refine Or.inr ⟨fun hf => hf.2.2.1 (by simp [hm]), ?_⟩
      have : Opt.onlyStats ∉ l := fun hh => h.2.2.1 ⟨hh, hm⟩
      simp [step, stateOf, hm, this]
    · refine Or.inl ⟨⟨?_, ?_, ?_, hpre (hlev (by simp))⟩, ?_⟩
      · rw [mem_snoc]; rintro (hh | hh); exact h.1 hh; cases hh
      · rw [mem_snoc]; rintro (hh | hh); exact h.2.1 hh; cases hh
      · simp only [mem_snoc]
        rintro ⟨_, hk | hk⟩
        · exact hm hk
        · cases hk
      · have : (stateOf l).cflag ≠ .both := by
          simp only [stateOf, hm]
          split <;> simp
        rw [step, if_neg this]
        exact ⟨_, rfl⟩
  case stats =>
    by_cases hm : Opt.onlyStats ∈ l
    · refine Or.inr ⟨fun hf => hf.2.2.1 (by simp [hm]), ?_⟩
      simp [step, stateOf, hm]
    · refine Or.inl ⟨⟨?_, ?_, ?_, hpre (hlev (by simp))⟩, ?_⟩
      · rw [mem_snoc]; rintro (hh | hh); exact h.1 hh; cases hh
      · rw [mem_snoc]; rintro (hh | hh); exact h.2.1 hh; cases hh
      · simp only [mem_snoc]
        rintro ⟨hk | hk, _⟩
        · exact hm hk
        · cases hk
      · have : (stateOf l).cflag ≠ .only := by
          simp only [stateOf, hm]
          simp
          split <;> simp
        rw [step, if_neg this]
        exact ⟨_, rfl⟩
  all_goals exact Or.inl ⟨good (by simp) (by simp) (by simp) (by simp) (by simp), _, rfl⟩

/-- the variables after the loop are those of the options -/
theorem parse_fine (l : List Opt) (h : Fine l) : parse {} l = .run (stateOf l) := by
  induction l using List.reverseRecOn with
  | nil => rw [stateOf_nil]; rfl
  | append_singleton l o ih =>
    rw [parse_snoc, ih (fine_init l o h)]
    show step (stateOf l) o = _
    rcases step_fine l o (fine_init l o h) with ⟨_, s, hs⟩ | ⟨hn, _⟩
    · rw [hs, step_stateOf l o s hs h.2.2.1]
    · exact absurd h hn

theorem parse_not (l : List Opt) (h : ¬ Fine l) :
    (parse {} l = .help ∧ ∃ p q, l = p ++ .help :: q ∧ Fine p) ∨
    (parse {} l = .died ∧ ∃ p o q, l = p ++ o :: q ∧ Fine p ∧ ¬ Fine (p ++ [o]) ∧ o ≠ .help) := by
  induction l using List.reverseRecOn with
  | nil => exact absurd fine_nil h
  | append_singleton l o ih =>
    rw [parse_snoc]
    by_cases hl : Fine l
    · rw [parse_fine l hl]
      show (step (stateOf l) o = _ ∧ _) ∨ (step (stateOf l) o = _ ∧ _)
      rcases step_fine l o hl with ⟨hf, _⟩ | ⟨hn, hs⟩
      · exact absurd hf h
      · rw [hs]
        by_cases ho : o = .help
        · subst ho
          exact Or.inl ⟨rfl, l, [], rfl, hl⟩
        · rw [if_neg ho]
          exact Or.inr ⟨rfl, l, o, [], rfl, hl, hn, ho⟩
    · rcases ih hl with ⟨hp, p, q, hq, hf⟩ | ⟨hp, p, x, q, hq, hf⟩
      · exact Or.inl ⟨by rw [hp]; rfl, p, q ++ [o], by rw [hq]; simp, hf⟩
      · exact Or.inr ⟨by rw [hp]; rfl, p, x, q ++ [o], by rw [hq]; simp, hf⟩

end Strace.Opt
