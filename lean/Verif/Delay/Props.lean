import Verif.Delay.Model
/-!
# C44: a delayed tracee is woken up, and not too early
-/
namespace Strace.Delay

/-! ### Not too early -/

theorem fire_held (st : St) : st.fire.held = st.held ∧ st.fire.freed = st.freed ∧ st.fire.now = st.now ∧
    st.fire.armed = st.armed := by
  unfold St.fire
  split
  · exact ⟨rfl, rfl, rfl, rfl⟩
  · split <;> exact ⟨rfl, rfl, rfl, rfl⟩

theorem arm_held (k : Bool) (st : St) (t : Nat) : (st.arm k t).held = st.held ∧ (st.arm k t).freed = st.freed ∧
    (st.arm k t).now = st.now ∧ (st.arm k t).armed = true :=
  fire_held _

theorem tick_held (st : St) (d : Nat) : (st.tick d).held = st.held ∧ (st.tick d).freed = st.freed ∧
    (st.tick d).now = st.now + d ∧ (st.tick d).armed = st.armed :=
  fire_held _

theorem delay_held (k : Bool) (st : St) (i diff gap : Nat) :
    (st.delay k i diff gap).held = ⟨i, st.now + diff⟩ :: st.held ∧ (st.delay k i diff gap).freed = st.freed ∧
      (st.delay k i diff gap).now = st.now + gap := by
  have h := tick_held { st with held := ⟨i, st.now + diff⟩ :: st.held } gap
  unfold St.delay
  dsimp only
  split
  · exact ⟨h.1, h.2.1, h.2.2.1⟩
  · have h2 := arm_held k (({ st with held := ⟨i, st.now + diff⟩ :: st.held } : St).tick gap) (st.now + diff)
    exact ⟨h2.1.trans h.1, h2.2.1.trans h.2.1, h2.2.2.1.trans h.2.2.1⟩

theorem restart_held (k : Bool) (st : St) :
    (st.restart k).held = st.held.filter (fun h => !decide (st.now > h.deadline)) ∧
    (st.restart k).freed = st.freed ++ (st.held.filter fun h => decide (st.now > h.deadline)).map (fun h => (h, st.now)) ∧
    (st.restart k).now = st.now := by
  unfold St.restart
  dsimp only
  split
  · exact ⟨rfl, rfl, rfl⟩
  · rename_i n _
    have h2 := arm_held k { st with
      held := st.held.filter fun h => !decide (st.now > h.deadline)
      freed := st.freed ++ (st.held.filter fun h => decide (st.now > h.deadline)).map fun h => (h, st.now) } n.deadline
    exact ⟨h2.1, h2.2.1, h2.2.2.1⟩

theorem wait_yes (k : Bool) (st : St) (h : st.armed = true ∧ st.pending = true) :
    st.wait k = ({ st with pending := false, armed := false } : St).restart k := by
  unfold St.wait
  rw [if_pos h]

theorem wait_no (k : Bool) (st : St) (h : ¬ (st.armed = true ∧ st.pending = true)) : st.wait k = st := by
  unfold St.wait
  rw [if_neg h]

/-- a tracee that was delayed for `diff` at time `t` is let go only after `t + diff`: spec of the deadlines -/
def Asked (ops : List Op) (now : Nat) : List (Nat × Nat) :=
  match ops with
  | [] => []
  | .tick d :: l => Asked l (now + d)
  | .delay i diff gap :: l => (i, now + diff) :: Asked l (now + gap)
  | .wait :: l => Asked l now
  | .vanish _ :: l => Asked l now

/-- C44: whatever happens, and whatever the kernel does with pending notifications, a tracee is let go only strictly
after the time at which its delay ends -/
theorem never_early (k : Bool) (now : Nat) (ops : List Op) (h : Held) (t : Nat)
    (hm : (h, t) ∈ ((St.init now).run k ops).freed) :
    t > h.deadline ∧ (h.id, h.deadline) ∈ Asked ops now := by
  have key : ∀ (ops : List Op) (st : St) (P : List (Nat × Nat)),
      (∀ h ∈ st.held, (h.id, h.deadline) ∈ P) → (∀ x ∈ st.freed, x.2 > x.1.deadline ∧ (x.1.id, x.1.deadline) ∈ P) →
      ∀ x ∈ (st.run k ops).freed, x.2 > x.1.deadline ∧ (x.1.id, x.1.deadline) ∈ P ++ Asked ops st.now := by
    intro ops
    induction ops with
    | nil =>
      intro st P h1 h2 x hx
      have := h2 x hx
      exact ⟨this.1, by simp [Asked, this.2]⟩
    | cons o ops ih =>
      intro st P h1 h2
      show ∀ x ∈ ((st.step k o).run k ops).freed, _
      cases o with
      | tick d =>
        have e := tick_held st d
        have := ih (st.tick d) P (by rw [e.1]; exact h1) (by rw [e.2.1]; exact h2)
        rw [e.2.2.1] at this
        exact this
      | delay i diff gap =>
        have e := delay_held k st i diff gap
        have := ih (st.delay k i diff gap) (P ++ [(i, st.now + diff)]) (by
          rw [e.1]
          intro h hh
          rcases List.mem_cons.mp hh with hh | hh
          · rw [hh]; simp
          · simp [h1 h hh]) (by
          rw [e.2.1]
          intro x hx
          have := h2 x hx
          exact ⟨this.1, by simp [this.2]⟩)
        rw [e.2.2] at this
        intro x hx
        have := this x hx
        simpa [Asked] using this
      | wait =>
        by_cases hw : st.armed = true ∧ st.pending = true
        · have e := restart_held k ({ st with pending := false, armed := false } : St)
          have e2 : st.step k .wait = ({ st with pending := false, armed := false } : St).restart k := wait_yes k st hw
          rw [e2]
          have := ih (({ st with pending := false, armed := false } : St).restart k) P (by
            rw [e.1]
            intro h hh
            exact h1 h (List.mem_filter.mp hh).1) (by
            rw [e.2.1]
            intro x hx
            rcases List.mem_append.mp hx with hx | hx
            · exact h2 x hx
            · obtain ⟨y, hy, rfl⟩ := List.mem_map.mp hx
              have := List.mem_filter.mp hy
              exact ⟨by simpa using this.2, h1 y this.1⟩)
          rw [e.2.2] at this
          exact this
        · have e2 : st.step k .wait = st := wait_no k st hw
          rw [e2]
          exact ih st P h1 h2
      | vanish i =>
        have := ih (st.vanish i) P (by
          intro h hh
          exact h1 h (List.mem_filter.mp hh).1) h2
        exact this
  have := key ops (St.init now) [] (by intro h hh; simp [St.init] at hh) (by intro h hh; simp [St.init] at hh) _ hm
  simpa [St.init] using this

/-! ### Woken up -/

/-- histories: a tracee does not end in a delay while the signal is pending (`lost_flag` shows why) -/
def Valid (k : Bool) : St → List Op → Prop
  | _, [] => True
  | st, o :: l =>
    (match o with
     | .vanish i => st.pending = false ∨ ∀ h ∈ st.held, h.id ≠ i
     | _ => True) ∧ Valid k (st.step k o) l

/-- what passes between the two readings in `delay_tcb` is at most `g` -/
def GapOk (g : Nat) (ops : List Op) : Prop := ∀ i diff gap, Op.delay i diff gap ∈ ops → gap ≤ g

/-- the timer is running or has expired; if it has, and was armed again, it is for a tracee that still waits -/
structure Inv (g : Nat) (st : St) : Prop where
  late : ∀ e, st.exp = some e → st.now < e
  flag : st.pending = true ∨ st.exp ≠ none → st.armed = true
  owner : ∀ e, st.exp = some e → st.pending = true → ∃ h ∈ st.held, h.deadline = e
  due : ∀ h ∈ st.held, st.pending = true ∨ ∃ e, st.exp = some e ∧ e ≤ h.deadline + g

theorem Inv.init (g now : Nat) : Inv g (St.init now) :=
  ⟨by simp [St.init], by simp [St.init], by simp [St.init], by simp [St.init]⟩

theorem Inv.tick {g : Nat} {st : St} (h : Inv g st) (d : Nat) : Inv g (st.tick d) := by
  unfold St.tick St.fire
  dsimp only
  cases he : st.exp with
  | none =>
    dsimp only
    refine ⟨by simp, ?_, by simp, ?_⟩
    · intro hp
      rcases hp with hp | hp
      · exact h.flag (Or.inl hp)
      · exact absurd rfl hp
    · intro x hx
      rcases h.due x hx with hd | ⟨e, hd, _⟩
      · exact Or.inl hd
      · rw [he] at hd; simp at hd
  | some e =>
    dsimp only
    split
    · refine ⟨by simp, ?_, by simp, fun x _ => Or.inl rfl⟩
      intro _
      exact h.flag (Or.inr (by simp [he]))
    · rename_i hlt
      refine ⟨?_, ?_, ?_, ?_⟩
      · intro e' he'
        injection he' with he'
        dsimp only
        omega
      · intro _
        exact h.flag (Or.inr (by simp [he]))
      · intro e' he' hp
        exact h.owner e' (by rw [he]; exact he') hp
      · intro x hx
        rcases h.due x hx with hd | ⟨e', hd, hle⟩
        · exact Or.inl hd
        · rw [he] at hd
          exact Or.inr ⟨e', hd, hle⟩

/-- arming for a tracee that waits, no later than before -/
theorem Inv.arm {g : Nat} {st : St} (t : Nat) (ho : ∃ h ∈ st.held, h.deadline = t)
    (hd : ∀ h ∈ st.held, st.pending = true ∨ t ≤ h.deadline + g) : Inv g (st.arm true t) := by
  unfold St.arm St.fire
  dsimp only
  split
  · exact ⟨by simp, fun _ => rfl, by simp, fun x _ => Or.inl rfl⟩
  · rename_i hlt
    refine ⟨?_, fun _ => rfl, ?_, ?_⟩
    · intro e he
      injection he with he
      dsimp only
      omega
    · intro e he _
      injection he with he
      subst he
      exact ho
    · intro x hx
      rcases hd x hx with hd | hd
      · left
        simpa using hd
      · exact Or.inr ⟨t, rfl, hd⟩

theorem nextOf_spec (now : Nat) (n : Option Held) (l : List Held) :
    (∀ m, nextOf now n l = some m → (m ∈ l ∧ ¬ now > m.deadline ∨ n = some m) ∧
      (∀ h ∈ l, ¬ now > h.deadline → m.deadline ≤ h.deadline) ∧ ∀ x, n = some x → m.deadline ≤ x.deadline) ∧
    (nextOf now n l = none → n = none ∧ ∀ h ∈ l, now > h.deadline) := by
  induction l generalizing n with
  | nil =>
    refine ⟨?_, ?_⟩
    · intro m hm
      simp only [nextOf] at hm
      subst hm
      exact ⟨Or.inr rfl, by simp, by intro x hx; injection hx with hx; rw [hx]; exact Nat.le_refl _⟩
    · intro hm
      simp only [nextOf] at hm
      exact ⟨hm, by simp⟩
  | cons h l ih =>
    simp only [nextOf]
    by_cases hc : now > h.deadline
    · rw [if_pos hc]
      obtain ⟨i1, i2⟩ := ih n
      refine ⟨?_, ?_⟩
      · intro m hm
        obtain ⟨a, b, c⟩ := i1 m hm
        refine ⟨?_, ?_, c⟩
        · rcases a with a | a
          · exact Or.inl ⟨List.mem_cons_of_mem _ a.1, a.2⟩
          · exact Or.inr a
        · intro x hx hnx
          rcases List.mem_cons.mp hx with hx | hx
          · rw [hx] at hnx; exact absurd hc hnx
          · exact b x hx hnx
      · intro hm
        obtain ⟨a, b⟩ := i2 hm
        refine ⟨a, ?_⟩
        intro x hx
        rcases List.mem_cons.mp hx with hx | hx
        · rw [hx]; exact hc
        · exact b x hx
    · rw [if_neg hc]
      cases n with
      | none =>
        dsimp only
        obtain ⟨i1, i2⟩ := ih (some h)
        refine ⟨?_, fun hm => absurd (i2 hm).1 (by simp)⟩
        intro m hm
        obtain ⟨a, b, c⟩ := i1 m hm
        refine ⟨Or.inl ?_, ?_, by simp⟩
        · rcases a with a | a
          · exact ⟨List.mem_cons_of_mem _ a.1, a.2⟩
          · injection a with a
            rw [← a]
            exact ⟨by simp, hc⟩
        · intro x hx hnx
          rcases List.mem_cons.mp hx with hx | hx
          · rw [hx]; exact c h rfl
          · exact b x hx hnx
      | some q =>
        dsimp only
        by_cases hq : q.deadline > h.deadline
        · rw [if_pos hq]
          obtain ⟨i1, i2⟩ := ih (some h)
          refine ⟨?_, fun hm => absurd (i2 hm).1 (by simp)⟩
          intro m hm
          obtain ⟨a, b, c⟩ := i1 m hm
          have hmh := c h rfl
          refine ⟨Or.inl ?_, ?_, ?_⟩
          · rcases a with a | a
            · exact ⟨List.mem_cons_of_mem _ a.1, a.2⟩
            · injection a with a
              rw [← a]
              exact ⟨by simp, hc⟩
          · intro x hx hnx
            rcases List.mem_cons.mp hx with hx | hx
            · rw [hx]; exact hmh
            · exact b x hx hnx
          · intro x hx
            injection hx with hx
            rw [← hx]
            omega
        · rw [if_neg hq]
          obtain ⟨i1, i2⟩ := ih (some q)
          refine ⟨?_, fun hm => absurd (i2 hm).1 (by simp)⟩
          intro m hm
          obtain ⟨a, b, c⟩ := i1 m hm
          have hmq := c q rfl
          refine ⟨?_, ?_, c⟩
          · rcases a with a | a
            · exact Or.inl ⟨List.mem_cons_of_mem _ a.1, a.2⟩
            · exact Or.inr a
          · intro x hx hnx
            rcases List.mem_cons.mp hx with hx | hx
            · rw [hx]; omega
            · exact b x hx hnx

theorem Inv.wait {g : Nat} {st : St} (h : Inv g st) : Inv g (st.wait true) := by
  by_cases hw : st.armed = true ∧ st.pending = true
  · rw [wait_yes true st hw]
    unfold St.restart
    dsimp only
    obtain ⟨n1, n2⟩ := nextOf_spec st.now none st.held
    cases hn : nextOf st.now none st.held with
    | none =>
      dsimp only
      have hall := (n2 hn).2
      have hexp : st.exp = none := by
        cases he : st.exp with
        | none => rfl
        | some e =>
          obtain ⟨x, hx, hxe⟩ := h.owner e he hw.2
          have h1 := hall x hx
          have h2 := h.late e he
          omega
      refine ⟨?_, ?_, ?_, ?_⟩
      · intro e he
        rw [hexp] at he; simp at he
      · intro hp
        simp [hexp] at hp
      · intro e he
        rw [hexp] at he; simp at he
      · intro x hx
        have := List.mem_filter.mp hx
        have h1 := hall x this.1
        simp [h1] at this
    | some m =>
      dsimp only
      obtain ⟨a, b, _⟩ := n1 m hn
      refine Inv.arm m.deadline ⟨m, ?_, rfl⟩ ?_
      · rcases a with a | a
        · refine List.mem_filter.mpr ⟨a.1, ?_⟩
          simpa using a.2
        · simp at a
      · intro x hx
        have := List.mem_filter.mp hx
        right
        have h1 := b x this.1 (by simpa using this.2)
        omega
  · rw [wait_no true st hw]
    exact h

theorem Inv.delay {g : Nat} {st : St} (h : Inv g st) (i diff gap : Nat) (hg : gap ≤ g) :
    Inv g (st.delay true i diff gap) := by
  have hd := tick_held { st with held := ⟨i, st.now + diff⟩ :: st.held } gap
  have ht := h.tick gap
  have hsame : (({ st with held := ⟨i, st.now + diff⟩ :: st.held } : St).tick gap) =
      { st.tick gap with held := ⟨i, st.now + diff⟩ :: st.held } := by
    unfold St.tick St.fire
    dsimp only
    cases st.exp with
    | none => rfl
    | some e =>
      dsimp only
      split <;> rfl
  have hnow := (tick_held st gap).2.2.1
  have hheld := (tick_held st gap).1
  unfold St.delay
  dsimp only
  rw [hsame]
  have hleft : ({ st.tick gap with held := ⟨i, st.now + diff⟩ :: st.held } : St).left = (st.tick gap).left := rfl
  rw [hleft]
  generalize hst : st.tick gap = s at *
  split
  · rename_i hc
    have he : ∃ e, s.exp = some e ∧ s.left = e - s.now := by
      unfold St.left at hc ⊢
      cases he : s.exp with
      | none => rw [he] at hc; simp at hc
      | some e => exact ⟨e, rfl, rfl⟩
    obtain ⟨e, he, hl⟩ := he
    have hlate := ht.late e he
    refine ⟨ht.late, ht.flag, ?_, ?_⟩
    · intro e' he' hp
      obtain ⟨x, hx, hxe⟩ := ht.owner e' he' hp
      rw [hheld] at hx
      exact ⟨x, List.mem_cons_of_mem _ hx, hxe⟩
    · intro x hx
      rcases List.mem_cons.mp hx with hx | hx
      · right
        refine ⟨e, he, ?_⟩
        rw [hx]
        dsimp only
        omega
      · exact ht.due x (by rw [hheld]; exact hx)
  · rename_i hc
    refine Inv.arm _ ⟨_, List.mem_cons_self, rfl⟩ ?_
    intro x hx
    rcases List.mem_cons.mp hx with hx | hx
    · right; rw [hx]; dsimp only; omega
    · rcases ht.due x (by rw [hheld]; exact hx) with hp | ⟨e, he, hle⟩
      · exact Or.inl hp
      · right
        have hlate := ht.late e he
        have hl : s.left = e - s.now := by unfold St.left; rw [he]
        rw [hl] at hc
        have : ¬ diff > e - s.now := fun hgt => hc ⟨by omega, hgt⟩
        omega

theorem Inv.vanish {g : Nat} {st : St} (h : Inv g st) (i : Nat)
    (hv : st.pending = false ∨ ∀ h ∈ st.held, h.id ≠ i) : Inv g (st.vanish i) := by
  refine ⟨h.late, h.flag, ?_, ?_⟩
  · intro e he hp
    obtain ⟨x, hx, hxe⟩ := h.owner e he hp
    rcases hv with hv | hv
    · have : st.pending = true := hp
      rw [hv] at this
      simp at this
    · refine ⟨x, List.mem_filter.mpr ⟨hx, by simpa using hv x hx⟩, hxe⟩
  · intro x hx
    exact h.due x (List.mem_filter.mp hx).1

theorem run_inv {g : Nat} (ops : List Op) {st : St} (h : Inv g st) (hv : Valid true st ops) (hg : GapOk g ops) :
    Inv g (st.run true ops) := by
  induction ops generalizing st with
  | nil => exact h
  | cons o ops ih =>
    have hg' : GapOk g ops := fun i d p hm => hg i d p (List.mem_cons_of_mem _ hm)
    refine ih ?_ hv.2 hg'
    cases o with
    | tick d => exact h.tick d
    | delay i diff gap => exact h.delay i diff gap (hg i diff gap List.mem_cons_self)
    | wait => exact h.wait
    | vanish i => exact h.vanish i hv.1

/-- C44: while a tracee is delayed, the signal is not kept blocked, and either it is pending or the timer is armed for
a time in the future and not later than the end of the delay plus the time between the two readings in `delay_tcb` -/
theorem timer_armed_partial (g now : Nat) (ops : List Op) (hv : Valid true (St.init now) ops) (hg : GapOk g ops)
    (h : Held) (hm : h ∈ ((St.init now).run true ops).held) :
    let st := (St.init now).run true ops
    st.armed = true ∧ (st.pending = true ∨ ∃ e, st.exp = some e ∧ st.now < e ∧ e ≤ h.deadline + g) := by
  have hi := run_inv ops (Inv.init g now) hv hg
  refine ⟨?_, ?_⟩
  · rcases hi.due h hm with hd | ⟨e, he, _⟩
    · exact hi.flag (Or.inl hd)
    · exact hi.flag (Or.inr (by rw [he]; simp))
  · rcases hi.due h hm with hd | ⟨e, he, hle⟩
    · exact Or.inl hd
    · exact Or.inr ⟨e, he, hi.late e he, hle⟩

/-- C44: a tracee whose delay is over is let go when strace waits next -/
theorem woken_partial (g now : Nat) (ops : List Op) (hv : Valid true (St.init now) ops) (hg : GapOk g ops)
    (h : Held) (hm : h ∈ ((St.init now).run true ops).held) (ht : ((St.init now).run true ops).now > h.deadline + g) :
    (h, ((St.init now).run true ops).now) ∈ ((St.init now).run true (ops ++ [.wait])).freed ∧
      h ∉ ((St.init now).run true (ops ++ [.wait])).held := by
  obtain ⟨ha, hp⟩ := timer_armed_partial g now ops hv hg h hm
  have e : (St.init now).run true (ops ++ [.wait]) = ((St.init now).run true ops).wait true := by
    simp [St.run, St.step]
  rw [e]
  generalize (St.init now).run true ops = st at *
  have hp' : st.pending = true := by
    rcases hp with hp | ⟨e, _, h1, h2⟩
    · exact hp
    · omega
  rw [wait_yes true st ⟨ha, hp'⟩]
  have r := restart_held true ({ st with pending := false, armed := false } : St)
  have hgt : st.now > h.deadline := by omega
  constructor
  · rw [r.2.1]
    refine List.mem_append_right _ (List.mem_map.mpr ⟨h, List.mem_filter.mpr ⟨hm, ?_⟩, rfl⟩)
    simpa using hgt
  · rw [r.1]
    intro hmem
    have := (List.mem_filter.mp hmem).2
    simp [hgt] at this

/-! ### Examples -/

/-- three tracees, one of which ends in its delay -/
def some3 : List Op :=
  [.delay 0 100 3, .tick 10, .delay 1 20 2, .delay 2 500 1, .tick 5, .vanish 2, .wait, .tick 20, .wait, .tick 100]

theorem some3_valid : Valid true (St.init 1000) some3 := by
  refine ⟨trivial, trivial, trivial, trivial, trivial, Or.inl (by decide +kernel), trivial, trivial, trivial, trivial, trivial⟩

theorem some3_run :
    ((St.init 1000).run true some3).held = [⟨0, 1100⟩] ∧ ((St.init 1000).run true some3).now = 1141 ∧
      ((St.init 1000).run true some3).freed = [(⟨1, 1033⟩, 1041)] := by decide +kernel

/-! ### Where it fails -/

/-- C44 (finding): the timer may be armed for later than the end of the delay if time passes between the two
readings -/
theorem late_by_gap :
    ((St.init 0).run true [.delay 0 1000 0, .tick 899, .delay 1 100 5]).held = [⟨1, 999⟩, ⟨0, 1000⟩] ∧
      ((St.init 0).run true [.delay 0 1000 0, .tick 899, .delay 1 100 5]).exp = some 1000 := by decide +kernel

/-- C44 (finding): if arming the timer discards a pending notification, which POSIX allows, a tracee whose delay is
over waits for another one's -/
theorem discarded_notification :
    let st := (St.init 0).run false [.delay 0 10 0, .tick 20, .delay 1 1000 0, .wait]
    st.now = 20 ∧ st.pending = false ∧ st.exp = some 1020 ∧ st.held = [⟨1, 1020⟩, ⟨0, 10⟩] := by decide +kernel

/-- the events up to the point of no return in `lost_flag` -/
def lost : List Op := [.delay 0 10 0, .tick 20, .delay 1 1000 0, .vanish 1, .wait, .delay 2 5000 0]

/-- C44 (finding): a tracee ends in its delay while the signal is pending: the timer stays armed for it, but strace
believes that it is not, never unblocks the signal again, and the next tracee is never let go, however long one waits -/
theorem lost_flag (more : List Op) (hm : ∀ o ∈ more, o = .wait ∨ ∃ d, o = .tick d) :
    ((St.init 0).run true (lost ++ more)).held = [⟨2, 5020⟩] := by
  have key : ∀ (more : List Op) (st : St), (∀ o ∈ more, o = .wait ∨ ∃ d, o = .tick d) → st.armed = false →
      (st.run true more).held = st.held := by
    intro more
    induction more with
    | nil => intro st _ _; rfl
    | cons o more ih =>
      intro st ho ha
      show ((st.step true o).run true more).held = _
      rcases ho o List.mem_cons_self with e | ⟨d, e⟩
      · subst e
        have : st.step true .wait = st := wait_no true st (by simp [ha])
        rw [this]
        exact ih st (fun o h => ho o (List.mem_cons_of_mem _ h)) ha
      · subst e
        have e := tick_held st d
        show ((st.tick d).run true more).held = _
        rw [ih (st.tick d) (fun o h => ho o (List.mem_cons_of_mem _ h)) (by rw [e.2.2.2]; exact ha), e.1]
  have e : (St.init 0).run true (lost ++ more) = ((St.init 0).run true lost).run true more := by simp [St.run]
  rw [e, key more _ hm (by decide +kernel)]
  decide +kernel

end Strace.Delay
