import Verif.Fork.Spec
/-!
# Theorems about following children
-/
namespace Strace.Fork
open Spec

theorem find_some {p : Nat} {l : List Task} {t : Task} (h : find p l = some t) : t ∈ l ∧ t.pid = p := by
  unfold find at h
  exact ⟨List.mem_of_find?_eq_some h, by simpa using List.find?_some h⟩

theorem find_none {p : Nat} {l : List Task} (h : find p l = none) : ∀ t ∈ l, t.pid ≠ p := by
  unfold find at h
  intro t ht
  simpa using List.find?_eq_none.1 h t ht

theorem mem_update {p : Nat} {f : Task → Task} {l : List Task} {t : Task} :
    t ∈ update p f l ↔ ∃ s ∈ l, (if s.pid = p then f s else s) = t := by
  unfold update
  simp [List.mem_map]

/-- What holds between the world and the family as long as strace runs with -f. -/
structure Inv (c : Cfg) (w : World) (fam : List Nat) : Prop where
  uniq : ∀ s ∈ w.tasks, ∀ t ∈ w.tasks, s.pid = t.pid → s = t
  tabu : ∀ e ∈ w.table, ∀ f ∈ w.table, e.1 = f.1 → e = f
  live : ∀ p, p ∈ fam ↔ ∃ t ∈ w.tasks, t.pid = p ∧ t.traced = true
  tab : ∀ e ∈ w.table, ∃ t ∈ w.tasks, t.pid = e.1 ∧ t.traced = true
  known : ∀ t ∈ w.tasks, t.traced = true → t.held = false → ∃ e ∈ w.table, e.1 = t.pid
  opts : ∀ t ∈ w.tasks, t.traced = true → t.opts = false → c.seize = false ∧ t.held = true ∧ (t.pid, true) ∈ w.table

/-- A change of one task that keeps its number and that it is traced keeps most of what holds. -/
theorem keep {c : Cfg} {w : World} {fam : List Nat} (h : Inv c w fam) (p : Nat) (f : Task → Task)
    (h1 : ∀ t, (f t).pid = t.pid) (h2 : ∀ t, (f t).traced = t.traced) :
    (∀ s ∈ update p f w.tasks, ∀ t ∈ update p f w.tasks, s.pid = t.pid → s = t) ∧
    (∀ q, q ∈ fam ↔ ∃ t ∈ update p f w.tasks, t.pid = q ∧ t.traced = true) ∧
    (∀ e ∈ w.table, ∃ t ∈ update p f w.tasks, t.pid = e.1 ∧ t.traced = true) := by
  have k1 : ∀ s : Task, (if s.pid = p then f s else s).pid = s.pid := by
    intro s; split <;> simp [h1]
  have k2 : ∀ s : Task, (if s.pid = p then f s else s).traced = s.traced := by
    intro s; split <;> simp [h2]
  refine ⟨?_, ?_, ?_⟩
  · intro s hs t ht hst
    obtain ⟨s', hs', rfl⟩ := mem_update.1 hs
    obtain ⟨t', ht', rfl⟩ := mem_update.1 ht
    rw [k1, k1] at hst
    rw [h.uniq s' hs' t' ht' hst]
  · intro q
    rw [h.live q]
    constructor
    · rintro ⟨t, ht, e1, e2⟩
      exact ⟨_, mem_update.2 ⟨t, ht, rfl⟩, (k1 t).trans e1, (k2 t).trans e2⟩
    · rintro ⟨t, ht, e1, e2⟩
      obtain ⟨s, hs, rfl⟩ := mem_update.1 ht
      exact ⟨s, hs, (k1 s).symm.trans e1, (k2 s).symm.trans e2⟩
  · intro e he
    obtain ⟨t, ht, e1, e2⟩ := h.tab e he
    exact ⟨_, mem_update.2 ⟨t, ht, rfl⟩, (k1 t).trans e1, (k2 t).trans e2⟩

theorem inv_clone {c : Cfg} {w w' : World} {fam : List Nat} {p q : Nat} {u pt : Bool} (h : Inv c w fam)
    (hs : step c w (.clone p q u pt) = some w') : Inv c w' (family fam [.clone p q u pt]) := by
  simp only [step] at hs
  split at hs
  · rename_i t hp hq
    obtain ⟨ht, htp⟩ := find_some hp
    have hq := find_none hq
    split at hs
    · cases hs
    · rename_i hd
      simp at hd
      injection hs with hs
      subst hs
      have hopt : t.traced = true → t.opts = true := by
        intro a
        by_cases b : t.opts = true
        · exact b
        · have := (h.opts t ht a (by simpa using b)).2.1
          rw [hd.2] at this; cases this
      have hchild : (child t q u pt).traced = true ↔ p ∈ fam ∧ (u = false ∨ pt = true) := by
        have : p ∈ fam ↔ t.traced = true := by
          rw [h.live]
          constructor
          · rintro ⟨s, hs, e1, e2⟩
            rw [h.uniq t ht s hs (htp.trans e1.symm)]; exact e2
          · intro e; exact ⟨t, ht, htp, e⟩
        rw [this]
        by_cases a : t.traced = true
        · cases u <;> cases pt <;> simp [child, a, hopt a]
        · cases u <;> cases pt <;> simp [child, a]
      have hqf : q ∉ fam := by
        intro hc
        obtain ⟨s, hs, e, _⟩ := (h.live q).1 hc
        exact hq s hs e
      constructor
      · intro a ha b hb e
        simp only [List.mem_append, List.mem_singleton] at ha hb
        rcases ha with ha | rfl <;> rcases hb with hb | rfl
        · exact h.uniq a ha b hb e
        · exact absurd e (hq a ha)
        · exact absurd e.symm (hq b hb)
        · rfl
      · exact h.tabu
      · intro r
        simp only [family]
        constructor
        · intro hr
          split at hr
          · rename_i hc
            rcases List.mem_cons.1 hr with rfl | hr
            · exact ⟨_, List.mem_append_right _ (List.mem_singleton.2 rfl), rfl, hchild.2 hc⟩
            · obtain ⟨s, hs, e⟩ := (h.live r).1 hr
              exact ⟨s, List.mem_append_left _ hs, e⟩
          · obtain ⟨s, hs, e⟩ := (h.live r).1 hr
            exact ⟨s, List.mem_append_left _ hs, e⟩
        · rintro ⟨s, hs, e1, e2⟩
          simp only [List.mem_append, List.mem_singleton] at hs
          rcases hs with hs | rfl
          · have : r ∈ fam := (h.live r).2 ⟨s, hs, e1, e2⟩
            split
            · exact List.mem_cons_of_mem _ this
            · exact this
          · rw [if_pos (hchild.1 e2)]
            have e1 : q = r := e1
            rw [e1]; exact List.mem_cons_self
      · intro e he
        obtain ⟨s, hs, x⟩ := h.tab e he
        exact ⟨s, List.mem_append_left _ hs, x⟩
      · intro s hs a b
        simp only [List.mem_append, List.mem_singleton] at hs
        rcases hs with hs | rfl
        · exact h.known s hs a b
        · have : (child t q u pt).held = (child t q u pt).traced := rfl
          rw [this, a] at b; cases b
      · intro s hs a b
        simp only [List.mem_append, List.mem_singleton] at hs
        rcases hs with hs | rfl
        · exact h.opts s hs a b
        · have h1 : (child t q u pt).opts = ((child t q u pt).traced && t.opts) := rfl
          have h2 : t.traced = true := by
            have : (child t q u pt).traced = (t.traced && ((!u && t.opts) || pt)) := rfl
            rw [this] at a
            simp at a; exact a.1
          rw [h1, a, hopt h2] at b; cases b
  · cases hs

theorem inv_die {c : Cfg} {w w' : World} {fam : List Nat} {p : Nat} (h : Inv c w fam)
    (hs : step c w (.die p) = some w') : Inv c w' (family fam [.die p]) := by
  simp only [step] at hs
  split at hs
  · split at hs
    · cases hs
    · injection hs with hs
      subst hs
      obtain ⟨a, b, d⟩ := keep h p (fun t => { t with dead := true }) (fun _ => rfl) (fun _ => rfl)
      refine ⟨a, h.tabu, b, d, ?_, ?_⟩
      · intro t ht x y
        obtain ⟨s, hs, rfl⟩ := mem_update.1 ht
        have := h.known s hs
        split at x <;> simp_all
      · intro t ht x y
        obtain ⟨s, hs, rfl⟩ := mem_update.1 ht
        have := h.opts s hs
        split at x <;> simp_all
  · cases hs

theorem inv_reap {c : Cfg} {w w' : World} {fam : List Nat} {p : Nat} (h : Inv c w fam)
    (hs : step c w (.reap p) = some w') : Inv c w' (family fam [.reap p]) := by
  have key : ∀ (table : List (Nat × Bool)), (∀ e, e ∈ table ↔ e ∈ w.table ∧ e.1 ≠ p) → ∀ log ended,
      Inv c ⟨w.tasks.filter (·.pid != p), table, log, ended⟩ (family fam [.reap p]) := by
    intro table ht log ended
    constructor
    · intro a ha b hb
      simp only [List.mem_filter] at ha hb
      exact h.uniq a ha.1 b hb.1
    · intro a ha b hb
      exact h.tabu a ((ht a).1 ha).1 b ((ht b).1 hb).1
    · intro q
      simp only [family, List.mem_filter, decide_eq_true_eq, h.live q, bne_iff_ne]
      constructor
      · rintro ⟨⟨t, a, b, d⟩, e⟩
        exact ⟨t, ⟨a, by rw [b]; exact e⟩, b, d⟩
      · rintro ⟨t, ⟨a, e⟩, b, d⟩
        exact ⟨⟨t, a, b, d⟩, by rw [← b]; exact e⟩
    · intro e he
      obtain ⟨he, hne⟩ := (ht e).1 he
      obtain ⟨t, a, b, d⟩ := h.tab e he
      exact ⟨t, List.mem_filter.2 ⟨a, by simp [b, hne]⟩, b, d⟩
    · intro t a x y
      simp only [List.mem_filter, bne_iff_ne] at a
      obtain ⟨e, he, e1⟩ := h.known t a.1 x y
      exact ⟨e, (ht e).2 ⟨he, by rw [e1]; exact a.2⟩, e1⟩
    · intro t a x y
      simp only [List.mem_filter, bne_iff_ne] at a
      obtain ⟨z, u, v⟩ := h.opts t a.1 x y
      exact ⟨z, u, (ht _).2 ⟨v, a.2⟩⟩
  simp only [step] at hs
  split at hs
  · rename_i t hp
    obtain ⟨ht, htp⟩ := find_some hp
    split at hs
    · cases hs
    · split at hs
      · split at hs
        · cases hs
        · injection hs with hs
          subst hs
          unfold onExit
          split
          · exact key _ (by simp [List.mem_filter]) _ _
          · rename_i hn
            refine key _ ?_ _ _
            intro e
            simp at hn
            refine ⟨fun he => ⟨he, fun x => ?_⟩, fun he => he.1⟩
            obtain ⟨e1, e2⟩ := e
            subst x
            cases e2
            · exact hn.1 he
            · exact hn.2 he
      · rename_i htr
        injection hs with hs
        subst hs
        refine key _ ?_ _ _
        intro e
        refine ⟨fun he => ⟨he, ?_⟩, fun he => he.1⟩
        intro x
        obtain ⟨s, a, b, d⟩ := h.tab e he
        rw [h.uniq s a t ht (by rw [b, x, htp])] at d
        exact htr d
  · cases hs

theorem inv_stop {c : Cfg} {w w' : World} {fam : List Nat} {p : Nat} (hf : c.follow = true) (h : Inv c w fam)
    (hs : step c w (.stop p) = some w') : Inv c w' (family fam [.stop p]) := by
  simp only [step] at hs
  split at hs
  · rename_i t hp
    obtain ⟨ht, htp⟩ := find_some hp
    split at hs
    · cases hs
    · rename_i hd
      simp at hd
      injection hs with hs
      subst hs
      unfold onStop
      split
      · rename_i e he
        have hm := List.mem_of_find?_eq_some he
        have hep : e.1 = p := by simpa using List.find?_some he
        obtain ⟨a, b, d⟩ := keep h p (proceed c e.2) (fun _ => rfl) (fun _ => rfl)
        refine ⟨a, ?_, b, ?_, ?_, ?_⟩
        · intro x hx y hy hxy
          simp only [List.mem_map] at hx hy
          obtain ⟨x', hx', rfl⟩ := hx
          obtain ⟨y', hy', rfl⟩ := hy
          have : x'.1 = y'.1 := by
            by_cases i : x'.1 = p <;> by_cases j : y'.1 = p <;> simp_all
          rw [h.tabu x' hx' y' hy' this]
        · intro x hx
          simp only [List.mem_map] at hx
          obtain ⟨x', hx', rfl⟩ := hx
          obtain ⟨s, s1, s2, s3⟩ := d x' hx'
          refine ⟨s, s1, ?_, s3⟩
          split
          · rename_i i; rw [s2, i]
          · exact s2
        · intro s hs x y
          obtain ⟨s', hs', rfl⟩ := mem_update.1 hs
          by_cases i : s'.pid = p
          · refine ⟨(p, false), ?_, ?_⟩
            · exact List.mem_map.2 ⟨e, hm, by simp [hep]⟩
            · simp [i, proceed]
          · simp only [i, if_false] at x y ⊢
            obtain ⟨f, f1, f2⟩ := h.known s' hs' x y
            exact ⟨f, List.mem_map.2 ⟨f, f1, by rw [if_neg]; rw [f2]; exact i⟩, f2⟩
        · intro s hs x y
          obtain ⟨s', hs', rfl⟩ := mem_update.1 hs
          by_cases i : s'.pid = p
          · exfalso
            simp only [i, if_true, proceed, hf] at x y
            by_cases j : s'.opts = true
            · rw [j] at y; simp at y
            · have j : s'.opts = false := by simpa using j
              obtain ⟨k, _, this⟩ := h.opts s' hs' x j
              have : e = (s'.pid, true) := h.tabu e hm _ this (by rw [hep, i])
              rw [this] at y
              simp [k] at y
          · simp only [i, if_false] at x y ⊢
            obtain ⟨f0, f1, f2⟩ := h.opts s' hs' x y
            exact ⟨f0, f1, List.mem_map.2 ⟨_, f2, by rw [if_neg i]⟩⟩
      · rename_i he
        have he : ∀ e ∈ w.table, e.1 ≠ p := by
          intro e hm
          simpa using List.find?_eq_none.1 he e hm
        rw [if_pos hf]
        obtain ⟨a, b, d⟩ := keep h p (proceed c true) (fun _ => rfl) (fun _ => rfl)
        refine ⟨a, ?_, b, ?_, ?_, ?_⟩
        · intro x hx y hy hxy
          simp only [List.mem_append, List.mem_singleton] at hx hy
          rcases hx with hx | rfl <;> rcases hy with hy | rfl
          · exact h.tabu x hx y hy hxy
          · exact absurd hxy (he x hx)
          · exact absurd hxy.symm (he y hy)
          · rfl
        · intro x hx
          simp only [List.mem_append, List.mem_singleton] at hx
          rcases hx with hx | rfl
          · exact d x hx
          · exact ⟨_, mem_update.2 ⟨t, ht, rfl⟩, by simp [htp, proceed], by simp [htp, proceed, hd.1.2]⟩
        · intro s hs x y
          obtain ⟨s', hs', rfl⟩ := mem_update.1 hs
          by_cases i : s'.pid = p
          · refine ⟨(p, false), List.mem_append_right _ (List.mem_singleton.2 rfl), ?_⟩
            simp [i, proceed]
          · simp only [i, if_false] at x y ⊢
            obtain ⟨f, f1, f2⟩ := h.known s' hs' x y
            exact ⟨f, List.mem_append_left _ f1, f2⟩
        · intro s hs x y
          obtain ⟨s', hs', rfl⟩ := mem_update.1 hs
          by_cases i : s'.pid = p
          · exfalso
            simp only [i, if_true, proceed, hf] at x y
            by_cases k : c.seize = true
            · simp only [k] at y
              have := (h.opts s' hs' x (by simpa using y)).1
              rw [k] at this; cases this
            · simp [k] at y
          · simp only [i, if_false] at x y ⊢
            obtain ⟨f0, f1, f2⟩ := h.opts s' hs' x y
            exact ⟨f0, f1, List.mem_append_left _ f2⟩
  · cases hs

theorem inv_wait {c : Cfg} {w w' : World} {fam : List Nat} (h : Inv c w fam)
    (hs : step c w .wait = some w') (he : w'.ended = false) : Inv c w' (family fam [.wait]) := by
  simp only [step] at hs
  split at hs
  · cases hs
  · injection hs with hs
    subst hs
    unfold onWait at he ⊢
    by_cases a : (c.pipe && w.table.isEmpty) = true
    · rw [if_pos a] at he; cases he
    · rw [if_neg a] at he ⊢
      by_cases b : (w.table.isEmpty && w.tasks.all (fun t => !t.traced)) = true
      · rw [if_pos b] at he; cases he
      · rw [if_neg b]; exact h

theorem ended_step {c : Cfg} {w w' : World} {a : Act} (hs : step c w a = some w') (he : w'.ended = false) :
    w.ended = false := by
  cases a with
  | clone p q u pt =>
    simp only [step] at hs
    split at hs
    · split at hs
      · cases hs
      · injection hs with hs; subst hs; exact he
    · cases hs
  | die p =>
    simp only [step] at hs
    split at hs
    · split at hs
      · cases hs
      · injection hs with hs; subst hs; exact he
    · cases hs
  | reap p =>
    simp only [step] at hs
    split at hs
    · split at hs
      · cases hs
      · split at hs
        · split at hs
          · cases hs
          · rename_i x; simpa using x
        · injection hs with hs; subst hs; exact he
    · cases hs
  | stop p =>
    simp only [step] at hs
    split at hs
    · split at hs
      · cases hs
      · rename_i x; simp at x; exact x.2
    · cases hs
  | wait =>
    simp only [step] at hs
    split at hs
    · cases hs
    · rename_i x; simpa using x

theorem ended_run {c : Cfg} : ∀ {as : List Act} {w w' : World}, run c w as = some w' → w'.ended = false → w.ended = false := by
  intro as
  induction as with
  | nil => intro w w' h he; injection h with h; subst h; exact he
  | cons a as ih =>
    intro w w' h he
    simp only [run] at h
    split at h
    · rename_i w1 h1
      exact ended_step h1 (ih h he)
    · cases h

theorem inv_step {c : Cfg} (hf : c.follow = true) {w w' : World} {fam : List Nat} {a : Act} (h : Inv c w fam)
    (hs : step c w a = some w') (he : w'.ended = false) : Inv c w' (family fam [a]) := by
  cases a with
  | clone => exact inv_clone h hs
  | die => exact inv_die h hs
  | reap => exact inv_reap h hs
  | stop => exact inv_stop hf h hs
  | wait => exact inv_wait h hs he

theorem family_cons (fam : List Nat) (a : Act) (as : List Act) : family fam (a :: as) = family (family fam [a]) as := by
  cases a <;> rfl

theorem inv_run {c : Cfg} (hf : c.follow = true) : ∀ {as : List Act} {w w' : World} {fam : List Nat}, Inv c w fam →
    run c w as = some w' → w'.ended = false → Inv c w' (family fam as) := by
  intro as
  induction as with
  | nil => intro w w' fam h hr _; injection hr with hr; subst hr; exact h
  | cons a as ih =>
    intro w w' fam h hr he
    simp only [run] at hr
    split at hr
    · rename_i w1 h1
      rw [family_cons]
      exact ih (inv_step hf h h1 (ended_run hr he)) hr he
    · cases hr

theorem inv_start {c : Cfg} (hf : c.follow = true) {l : List (Nat × Bool)}
    (hl : ∀ a ∈ l, ∀ b ∈ l, a.1 = b.1 → a = b) (hs : c.seize = true ∨ ∀ e ∈ l, e.2 = true) :
    Inv c (start c l) (l.map (·.1)) := by
  unfold start
  constructor
  · intro s hs t ht e
    simp only [List.mem_map] at hs ht
    obtain ⟨a, ha, rfl⟩ := hs
    obtain ⟨b, hb, rfl⟩ := ht
    rw [hl a ha b hb e]
  · intro s hs t ht e
    simp only [List.mem_map] at hs ht
    obtain ⟨a, ha, rfl⟩ := hs
    obtain ⟨b, hb, rfl⟩ := ht
    rw [hl a ha b hb e]
  · intro p
    simp only [List.mem_map]
    constructor
    · rintro ⟨a, ha, rfl⟩
      exact ⟨_, ⟨a, ha, rfl⟩, rfl, rfl⟩
    · rintro ⟨_, ⟨a, ha, rfl⟩, rfl, _⟩
      exact ⟨a, ha, rfl⟩
  · intro e he
    simp only [List.mem_map] at he ⊢
    obtain ⟨a, ha, rfl⟩ := he
    exact ⟨_, ⟨a, ha, rfl⟩, rfl, rfl⟩
  · intro t ht _ _
    simp only [List.mem_map] at ht ⊢
    obtain ⟨a, ha, rfl⟩ := ht
    exact ⟨_, ⟨a, ha, rfl⟩, rfl⟩
  · intro t ht _ x
    simp only [List.mem_map] at ht ⊢
    obtain ⟨a, ha, rfl⟩ := ht
    rw [hf] at x
    have x : c.seize = false := by simpa using x
    refine ⟨x, ?_, ⟨a, ha, rfl⟩⟩
    rcases hs with h | h
    · rw [h] at x; cases x
    · exact h a ha

/-! ### With -f -/

/-- **C128** With -f every member of the family is traced as long as strace runs, whatever the order in which the kernel tells of
the parents and of the children, and none of them runs code of its own that strace does not know of: it has a record, or it is
held at its first stop. -/
theorem follows {c : Cfg} (hf : c.follow = true) {l : List (Nat × Bool)} (hl : ∀ a ∈ l, ∀ b ∈ l, a.1 = b.1 → a = b)
    (hs : c.seize = true ∨ ∀ e ∈ l, e.2 = true) {as : List Act} {w : World} (hr : run c (start c l) as = some w)
    (he : w.ended = false) :
    ∀ p ∈ family (l.map (·.1)) as, ∃ t ∈ w.tasks, t.pid = p ∧ t.traced = true ∧
      (p ∈ w.table.map (·.1) ∨ t.held = true) := by
  intro p hp
  have h := inv_run hf (inv_start hf hl hs) hr he
  obtain ⟨t, ht, e1, e2⟩ := (h.live p).1 hp
  refine ⟨t, ht, e1, e2, ?_⟩
  by_cases a : t.held = true
  · exact Or.inr a
  · obtain ⟨e, x, y⟩ := h.known t ht e2 (by simpa using a)
    exact Or.inl (List.mem_map.2 ⟨e, x, y.trans e1⟩)

/-- **C128** Nobody else is traced, and nobody else has a record. -/
theorem nobody_else {c : Cfg} (hf : c.follow = true) {l : List (Nat × Bool)} (hl : ∀ a ∈ l, ∀ b ∈ l, a.1 = b.1 → a = b)
    (hs : c.seize = true ∨ ∀ e ∈ l, e.2 = true) {as : List Act} {w : World} (hr : run c (start c l) as = some w)
    (he : w.ended = false) :
    (∀ t ∈ w.tasks, t.traced = true → t.pid ∈ family (l.map (·.1)) as) ∧
    (∀ p ∈ w.table.map (·.1), p ∈ family (l.map (·.1)) as) := by
  have h := inv_run hf (inv_start hf hl hs) hr he
  refine ⟨fun t ht a => (h.live _).2 ⟨t, ht, rfl, a⟩, ?_⟩
  intro p hp
  obtain ⟨e, he, rfl⟩ := List.mem_map.1 hp
  obtain ⟨t, ht, a, b⟩ := h.tab e he
  exact (h.live _).2 ⟨t, ht, a, b⟩

/-- **C128** Unless the output goes to a command, strace does not end before all of the family have gone. -/
theorem ends_last {c : Cfg} (hf : c.follow = true) (hp : c.pipe = false) {l : List (Nat × Bool)}
    (hl : ∀ a ∈ l, ∀ b ∈ l, a.1 = b.1 → a = b) (hs : c.seize = true ∨ ∀ e ∈ l, e.2 = true) {as : List Act} {w w' : World}
    {a : Act} (hr : run c (start c l) as = some w) (he : w.ended = false) (hw : step c w a = some w') (hw' : w'.ended = true) :
    family (l.map (·.1)) as = [] := by
  have h := inv_run hf (inv_start hf hl hs) hr he
  have hall : w.tasks.all (fun t => !t.traced) = true := by
    cases a with
    | wait =>
      simp only [step, he] at hw
      injection hw with hw
      subst hw
      unfold onWait at hw'
      rw [hp] at hw'
      rw [if_neg (by simp)] at hw'
      by_cases b : (w.table.isEmpty && w.tasks.all (fun t => !t.traced)) = true
      · simp only [Bool.and_eq_true] at b; exact b.2
      · rw [if_neg b, he] at hw'; cases hw'
    | clone p q u pt =>
      simp only [step] at hw
      split at hw
      · split at hw
        · cases hw
        · injection hw with hw; subst hw; rw [he] at hw'; cases hw'
      · cases hw
    | die p =>
      simp only [step] at hw
      split at hw
      · split at hw
        · cases hw
        · injection hw with hw; subst hw; rw [he] at hw'; cases hw'
      · cases hw
    | reap p =>
      simp only [step, he] at hw
      split at hw
      · split at hw
        · cases hw
        · split at hw
          · injection hw with hw
            subst hw
            unfold onExit at hw'
            split at hw' <;> (rw [he] at hw'; cases hw')
          · injection hw with hw; subst hw; cases hw'
      · cases hw
    | stop p =>
      simp only [step, he] at hw
      split at hw
      · split at hw
        · cases hw
        · injection hw with hw
          subst hw
          unfold onStop at hw'
          split at hw'
          · rw [he] at hw'; cases hw'
          · split at hw' <;> (rw [he] at hw'; cases hw')
      · cases hw
  have : ∀ p, p ∉ family (l.map (·.1)) as := by
    intro p hp
    obtain ⟨t, ht, _, e2⟩ := (h.live p).1 hp
    have := List.all_eq_true.1 hall t ht
    rw [e2] at this; cases this
  exact List.eq_nil_iff_forall_not_mem.2 this

/-- **C128** When all of the family have gone and strace looks for more, it ends. -/
theorem ends {c : Cfg} (hf : c.follow = true) {l : List (Nat × Bool)}
    (hl : ∀ a ∈ l, ∀ b ∈ l, a.1 = b.1 → a = b) (hs : c.seize = true ∨ ∀ e ∈ l, e.2 = true) {as : List Act} {w : World}
    (hr : run c (start c l) as = some w) (he : w.ended = false) (hfam : family (l.map (·.1)) as = []) :
    ∃ w', step c w .wait = some w' ∧ w'.ended = true := by
  have h := inv_run hf (inv_start hf hl hs) hr he
  have h1 : w.table = [] := by
    apply List.eq_nil_iff_forall_not_mem.2
    intro e he
    obtain ⟨t, ht, a, b⟩ := h.tab e he
    have := (h.live _).2 ⟨t, ht, a, b⟩
    rw [hfam] at this; cases this
  have h2 : w.tasks.all (fun t => !t.traced) = true := by
    apply List.all_eq_true.2
    intro t ht
    by_cases a : t.traced = true
    · have := (h.live _).2 ⟨t, ht, rfl, a⟩
      rw [hfam] at this; cases this
    · simp [a]
  simp only [step, he]
  refine ⟨_, rfl, ?_⟩
  unfold onWait
  rw [h1, h2]
  cases c.pipe <;> rfl

/-- **C128** With -o '|command' strace may end before, but then everybody who is left is held at the first stop, of which
strace has not been told: what is missing is that strace waits for them (see `pipe_counterexample`). -/
theorem ends_last_pipe_partial {c : Cfg} (hf : c.follow = true) {l : List (Nat × Bool)}
    (hl : ∀ a ∈ l, ∀ b ∈ l, a.1 = b.1 → a = b) (hs : c.seize = true ∨ ∀ e ∈ l, e.2 = true) {as : List Act} {w w' : World}
    (hr : run c (start c l) as = some w) (hw : step c w .wait = some w') (he : w.ended = false) (hw' : w'.ended = true) :
    ∀ p ∈ family (l.map (·.1)) as, ∃ t ∈ w.tasks, t.pid = p ∧ t.traced = true ∧ t.held = true := by
  have hemp : w.table.isEmpty = true := by
    simp only [step, he] at hw
    injection hw with hw
    subst hw
    unfold onWait at hw'
    by_cases a : (c.pipe && w.table.isEmpty) = true
    · simp only [Bool.and_eq_true] at a; exact a.2
    · rw [if_neg a] at hw'
      by_cases b : (w.table.isEmpty && w.tasks.all (fun t => !t.traced)) = true
      · simp only [Bool.and_eq_true] at b; exact b.1
      · rw [if_neg b, he] at hw'; cases hw'
  intro p hp
  obtain ⟨t, ht, e1, e2, h | h⟩ := follows hf hl hs hr he p hp
  · rw [List.isEmpty_iff.1 hemp] at h; cases h
  · exact ⟨t, ht, e1, e2, h⟩

/-! ### A stop that is reported -/

/-- **C128** After a stop has been reported the task goes on, and it has a record or is not traced any more: nobody is left in a stop. -/
theorem goes_on {c : Cfg} {w w' : World} {p : Nat} (hs : step c w (.stop p) = some w') :
    ∀ t ∈ w'.tasks, t.pid = p → t.held = false ∧ (t.traced = true → p ∈ w'.table.map (·.1)) := by
  simp only [step] at hs
  split at hs
  · split at hs
    · cases hs
    · injection hs with hs
      subst hs
      unfold onStop
      split
      · rename_i e he
        have hm := List.mem_of_find?_eq_some he
        have hep : e.1 = p := by simpa using List.find?_some he
        intro t ht htp
        obtain ⟨s, hs, rfl⟩ := mem_update.1 ht
        have : s.pid = p := by
          by_cases a : s.pid = p
          · exact a
          · simpa [a] using htp
        refine ⟨by simp [this, proceed], fun _ => ?_⟩
        exact List.mem_map.2 ⟨(p, false), List.mem_map.2 ⟨e, hm, by simp [hep]⟩, rfl⟩
      · split
        · intro t ht htp
          obtain ⟨s, hs, rfl⟩ := mem_update.1 ht
          have : s.pid = p := by
            by_cases a : s.pid = p
            · exact a
            · simpa [a] using htp
          refine ⟨by simp [this, proceed], fun _ => ?_⟩
          exact List.mem_map.2 ⟨(p, false), List.mem_append_right _ (List.mem_singleton.2 rfl), rfl⟩
        · intro t ht htp
          obtain ⟨s, hs, rfl⟩ := mem_update.1 ht
          have : s.pid = p := by
            by_cases a : s.pid = p
            · exact a
            · simpa [a] using htp
          refine ⟨by simp [this, released], fun h => ?_⟩
          simp [this, released] at h
  · cases hs

/-- **C128** "Process N attached" is printed exactly when a task is taken up, and nothing else is printed then. -/
theorem announced {c : Cfg} (hq : c.quietAttach = false) {w w' : World} {a : Act} {p : Nat} (hs : step c w a = some w')
    (h : p ∉ w.table.map (·.1)) : p ∈ w'.table.map (·.1) ↔ w'.log = w.log ++ [.attached p] := by
  have nolog : ∀ (x : List Msg) (m : Msg), x ≠ x ++ [m] := by
    intro x m e
    have := congrArg List.length e
    simp at this
  cases a with
  | clone q r u pt =>
    simp only [step] at hs
    split at hs
    · split at hs
      · cases hs
      · injection hs with hs; subst hs
        exact ⟨fun x => absurd x h, fun x => absurd x (nolog _ _)⟩
    · cases hs
  | die q =>
    simp only [step] at hs
    split at hs
    · split at hs
      · cases hs
      · injection hs with hs; subst hs
        exact ⟨fun x => absurd x h, fun x => absurd x (nolog _ _)⟩
    · cases hs
  | reap q =>
    simp only [step] at hs
    split at hs
    · split at hs
      · cases hs
      · split at hs
        · split at hs
          · cases hs
          · injection hs with hs; subst hs
            unfold onExit
            split
            · refine ⟨fun x => absurd ?_ h, fun x => absurd x (nolog _ _)⟩
              obtain ⟨e, he, rfl⟩ := List.mem_map.1 x
              exact List.mem_map.2 ⟨e, (List.mem_filter.1 he).1, rfl⟩
            · refine ⟨fun x => absurd x h, fun x => ?_⟩
              have x := List.append_cancel_left x
              unfold say at x
              split at x
              · cases x
              · injection x with x; cases x
        · injection hs with hs; subst hs
          exact ⟨fun x => absurd x h, fun x => absurd x (nolog _ _)⟩
    · cases hs
  | stop q =>
    simp only [step] at hs
    split at hs
    · split at hs
      · cases hs
      · injection hs with hs; subst hs
        unfold onStop
        split
        · rename_i e he
          have hm := List.mem_of_find?_eq_some he
          have hep : e.1 = q := by simpa using List.find?_some he
          refine ⟨fun x => absurd ?_ h, fun x => absurd x (nolog _ _)⟩
          obtain ⟨f, hf, rfl⟩ := List.mem_map.1 x
          obtain ⟨g, hg, rfl⟩ := List.mem_map.1 hf
          refine List.mem_map.2 ⟨g, hg, ?_⟩
          split
          · rename_i i; exact i
          · rfl
        · split
          · have hsay : say c.quietAttach (Msg.attached q) = [.attached q] := by rw [hq]; rfl
            rw [hsay]
            constructor
            · intro x
              have : p = q := by
                obtain ⟨f, hf, rfl⟩ := List.mem_map.1 x
                rcases List.mem_append.1 hf with hf | hf
                · exact absurd (List.mem_map.2 ⟨f, hf, rfl⟩) h
                · rw [List.mem_singleton.1 hf]
              rw [this]
            · intro x
              have x := List.append_cancel_left x
              injection x with x
              injection x with x
              subst x
              exact List.mem_map.2 ⟨_, List.mem_append_right _ (List.mem_singleton.2 rfl), rfl⟩
          · refine ⟨fun x => absurd x h, fun x => ?_⟩
            have x := List.append_cancel_left x
            unfold say at x
            split at x
            · cases x
            · injection x with x; cases x
    · cases hs
  | wait =>
    simp only [step] at hs
    split at hs
    · cases hs
    · injection hs with hs; subst hs
      unfold onWait
      split
      · exact ⟨fun x => (by cases x), fun x => absurd x (nolog _ _)⟩
      · split
        · exact ⟨fun x => (by cases x), fun x => absurd x (nolog _ _)⟩
        · exact ⟨fun x => absurd x h, fun x => absurd x (nolog _ _)⟩

/-! ### Without -f -/

/-- What holds without -f. -/
structure InvN (w : World) (l : List Nat) : Prop where
  uniq : ∀ s ∈ w.tasks, ∀ t ∈ w.tasks, s.pid = t.pid → s = t
  tab : ∀ e ∈ w.table, e.1 ∈ l ∧ ∃ t ∈ w.tasks, t.pid = e.1 ∧ t.traced = true
  known : ∀ t ∈ w.tasks, t.traced = true → t.held = false → t.pid ∈ w.table.map (·.1)
  opts : ∀ t ∈ w.tasks, t.opts = false
  named : ∀ p ∈ l, p ∈ w.table.map (·.1)

theorem uniq_update {p : Nat} {f : Task → Task} {l : List Task} (h1 : ∀ t, (f t).pid = t.pid)
    (h : ∀ s ∈ l, ∀ t ∈ l, s.pid = t.pid → s = t) : ∀ s ∈ update p f l, ∀ t ∈ update p f l, s.pid = t.pid → s = t := by
  have k1 : ∀ s : Task, (if s.pid = p then f s else s).pid = s.pid := by
    intro s; split <;> simp [h1]
  intro s hs t ht hst
  obtain ⟨s', hs', rfl⟩ := mem_update.1 hs
  obtain ⟨t', ht', rfl⟩ := mem_update.1 ht
  rw [k1, k1] at hst
  rw [h s' hs' t' ht' hst]

theorem invN_step {c : Cfg} (hf : c.follow = false) {w w' : World} {l : List Nat} {a : Act} (h : InvN w l)
    (hs : step c w a = some w') (he : w'.ended = false) : InvN w' (named l [a]) := by
  cases a with
  | clone p q u pt =>
    simp only [step] at hs
    split at hs
    · rename_i t hp hq
      obtain ⟨ht, htp⟩ := find_some hp
      have hq := find_none hq
      split at hs
      · cases hs
      · injection hs with hs; subst hs
        refine ⟨?_, ?_, ?_, ?_, h.named⟩
        · intro a ha b hb e
          simp only [List.mem_append, List.mem_singleton] at ha hb
          rcases ha with ha | rfl <;> rcases hb with hb | rfl
          · exact h.uniq a ha b hb e
          · exact absurd e (hq a ha)
          · exact absurd e.symm (hq b hb)
          · rfl
        · intro e he
          obtain ⟨x, s, hs, y⟩ := h.tab e he
          exact ⟨x, s, List.mem_append_left _ hs, y⟩
        · intro s hs a b
          simp only [List.mem_append, List.mem_singleton] at hs
          rcases hs with hs | rfl
          · exact h.known s hs a b
          · have : (child t q u pt).held = (child t q u pt).traced := rfl
            rw [this, a] at b; cases b
        · intro s hs
          simp only [List.mem_append, List.mem_singleton] at hs
          rcases hs with hs | rfl
          · exact h.opts s hs
          · have h1 : (child t q u pt).opts = ((child t q u pt).traced && t.opts) := rfl
            rw [h1, h.opts t ht]; simp
    · cases hs
  | die p =>
    simp only [step] at hs
    split at hs
    · split at hs
      · cases hs
      · injection hs with hs; subst hs
        refine ⟨uniq_update (fun _ => rfl) h.uniq, ?_, ?_, ?_, h.named⟩
        · intro e he
          obtain ⟨x, t, ht, a, b⟩ := h.tab e he
          refine ⟨x, _, mem_update.2 ⟨t, ht, rfl⟩, ?_, ?_⟩ <;> split <;> assumption
        · intro t ht x y
          obtain ⟨s, hs, rfl⟩ := mem_update.1 ht
          have := h.known s hs
          split at x <;> simp_all
        · intro t ht
          obtain ⟨s, hs, rfl⟩ := mem_update.1 ht
          have := h.opts s hs
          split <;> assumption
    · cases hs
  | reap p =>
    have key : ∀ (table : List (Nat × Bool)), (∀ e, e ∈ table ↔ e ∈ w.table ∧ e.1 ≠ p) → ∀ log ended,
        InvN ⟨w.tasks.filter (·.pid != p), table, log, ended⟩ (named l [.reap p]) := by
      intro table ht log ended
      refine ⟨?_, ?_, ?_, ?_, ?_⟩
      · intro a ha b hb
        simp only [List.mem_filter] at ha hb
        exact h.uniq a ha.1 b hb.1
      · intro e he
        obtain ⟨he, hne⟩ := (ht e).1 he
        obtain ⟨x, t, a, b, d⟩ := h.tab e he
        exact ⟨List.mem_filter.2 ⟨x, by simpa using hne⟩, t, List.mem_filter.2 ⟨a, by simp [b, hne]⟩, b, d⟩
      · intro t a x y
        simp only [List.mem_filter, bne_iff_ne] at a
        obtain ⟨e, he, e1⟩ := List.mem_map.1 (h.known t a.1 x y)
        exact List.mem_map.2 ⟨e, (ht e).2 ⟨he, by rw [e1]; exact a.2⟩, e1⟩
      · intro t a
        exact h.opts t (List.mem_filter.1 a).1
      · intro q hq
        obtain ⟨hq, hne⟩ := List.mem_filter.1 hq
        obtain ⟨e, he, e1⟩ := List.mem_map.1 (h.named q hq)
        exact List.mem_map.2 ⟨e, (ht e).2 ⟨he, by rw [e1]; simpa using hne⟩, e1⟩
    simp only [step] at hs
    split at hs
    · rename_i t hp
      obtain ⟨ht, htp⟩ := find_some hp
      split at hs
      · cases hs
      · split at hs
        · split at hs
          · cases hs
          · injection hs with hs; subst hs
            unfold onExit
            split
            · exact key _ (by simp [List.mem_filter]) _ _
            · rename_i hn
              refine key _ ?_ _ _
              intro e
              simp at hn
              refine ⟨fun hem => ⟨hem, fun x => ?_⟩, fun hem => hem.1⟩
              obtain ⟨e1, e2⟩ := e
              subst x
              cases e2
              · exact hn.1 hem
              · exact hn.2 hem
        · rename_i htr
          injection hs with hs; subst hs
          refine key _ ?_ _ _
          intro e
          refine ⟨fun he => ⟨he, ?_⟩, fun he => he.1⟩
          intro x
          obtain ⟨_, s, a, b, d⟩ := h.tab e he
          rw [h.uniq s a t ht (by rw [b, x, htp])] at d
          exact htr d
    · cases hs
  | stop p =>
    simp only [step] at hs
    split at hs
    · split at hs
      · cases hs
      · injection hs with hs; subst hs
        unfold onStop
        split
        · rename_i e he
          have hm := List.mem_of_find?_eq_some he
          have hep : e.1 = p := by simpa using List.find?_some he
          have htab : ∀ q, q ∈ (w.table.map fun e => if e.1 = p then (p, false) else e).map (·.1) ↔ q ∈ w.table.map (·.1) := by
            intro q
            have : ((w.table.map fun e => if e.1 = p then (p, false) else e).map (·.1)) = w.table.map (·.1) := by
              rw [List.map_map]
              apply List.map_congr_left
              intro x _
              simp only [Function.comp]
              split
              · rename_i i; exact i.symm
              · rfl
            rw [this]
          refine ⟨uniq_update (fun _ => rfl) h.uniq, ?_, ?_, ?_, ?_⟩
          · intro x hx
            obtain ⟨y, hy, hxy⟩ := List.mem_map.1 ((htab x.1).1 (List.mem_map.2 ⟨x, hx, rfl⟩))
            obtain ⟨z, t, ht, a, b⟩ := h.tab y hy
            rw [hxy] at z a
            refine ⟨z, _, mem_update.2 ⟨t, ht, rfl⟩, ?_, ?_⟩ <;> split <;> assumption
          · intro t ht x y
            obtain ⟨s, hs, rfl⟩ := mem_update.1 ht
            rw [htab]
            by_cases i : s.pid = p
            · have : (if s.pid = p then proceed c e.2 s else s).pid = p := by simp [i, proceed]
              rw [this]; exact List.mem_map.2 ⟨e, hm, hep⟩
            · simp only [i, if_false] at x y ⊢
              exact h.known s hs x y
          · intro t ht
            obtain ⟨s, hs, rfl⟩ := mem_update.1 ht
            have := h.opts s hs
            split
            · simp [proceed, this, hf]
            · exact this
          · intro q hq
            exact (htab q).2 (h.named q hq)
        · rename_i hn
          have hn : ∀ e ∈ w.table, e.1 ≠ p := by
            intro e hm
            simpa using List.find?_eq_none.1 hn e hm
          rw [if_neg (by simp [hf])]
          refine ⟨uniq_update (fun _ => rfl) h.uniq, ?_, ?_, ?_, h.named⟩
          · intro x hx
            obtain ⟨z, t, ht, a, b⟩ := h.tab x hx
            have : t.pid ≠ p := by rw [a]; exact hn x hx
            exact ⟨z, t, mem_update.2 ⟨t, ht, by simp [this]⟩, a, b⟩
          · intro t ht x y
            obtain ⟨s, hs, rfl⟩ := mem_update.1 ht
            by_cases i : s.pid = p
            · simp [i, released] at x
            · simp only [i, if_false] at x y ⊢
              exact h.known s hs x y
          · intro t ht
            obtain ⟨s, hs, rfl⟩ := mem_update.1 ht
            have := h.opts s hs
            split
            · rfl
            · exact this
    · cases hs
  | wait =>
    simp only [step] at hs
    split at hs
    · cases hs
    · injection hs with hs; subst hs
      unfold onWait at he ⊢
      by_cases a : (c.pipe && w.table.isEmpty) = true
      · rw [if_pos a] at he; cases he
      · rw [if_neg a] at he ⊢
        by_cases b : (w.table.isEmpty && w.tasks.all (fun t => !t.traced)) = true
        · rw [if_pos b] at he; cases he
        · rw [if_neg b]; exact h

theorem named_cons (l : List Nat) (a : Act) (as : List Act) : named l (a :: as) = named (named l [a]) as := by
  cases a <;> rfl

theorem invN_run {c : Cfg} (hf : c.follow = false) : ∀ {as : List Act} {w w' : World} {l : List Nat}, InvN w l →
    run c w as = some w' → w'.ended = false → InvN w' (named l as) := by
  intro as
  induction as with
  | nil => intro w w' fam h hr _; injection hr with hr; subst hr; exact h
  | cons a as ih =>
    intro w w' fam h hr he
    simp only [run] at hr
    split at hr
    · rename_i w1 h1
      rw [named_cons]
      exact ih (invN_step hf h h1 (ended_run hr he)) hr he
    · cases hr

/-- **C128** Without -f exactly the tasks strace was told to trace have records until they have gone, and nobody else runs under strace:
a task that misused CLONE_PTRACE is let go when it stops for the first time. -/
theorem only_named {c : Cfg} (hf : c.follow = false) {l : List (Nat × Bool)} (hl : ∀ a ∈ l, ∀ b ∈ l, a.1 = b.1 → a = b)
    {as : List Act} {w : World} (hr : run c (start c l) as = some w) (he : w.ended = false) :
    (∀ p, p ∈ w.table.map (·.1) ↔ p ∈ named (l.map (·.1)) as) ∧
    (∀ t ∈ w.tasks, t.traced = true → t.held = false → t.pid ∈ named (l.map (·.1)) as) := by
  have h0 : InvN (start c l) (l.map (·.1)) := by
    unfold start
    refine ⟨?_, ?_, ?_, ?_, ?_⟩
    · intro s hs t ht e
      simp only [List.mem_map] at hs ht
      obtain ⟨a, ha, rfl⟩ := hs
      obtain ⟨b, hb, rfl⟩ := ht
      rw [hl a ha b hb e]
    · intro e he
      simp only [List.mem_map] at he ⊢
      obtain ⟨a, ha, rfl⟩ := he
      exact ⟨⟨a, ha, rfl⟩, _, ⟨a, ha, rfl⟩, rfl, rfl⟩
    · intro t ht _ _
      simp only [List.mem_map] at ht ⊢
      obtain ⟨a, ha, rfl⟩ := ht
      exact ⟨_, ⟨a, ha, rfl⟩, rfl⟩
    · intro t ht
      simp only [List.mem_map] at ht
      obtain ⟨a, ha, rfl⟩ := ht
      simp [hf]
    · intro p hp
      simp only [List.mem_map] at hp ⊢
      obtain ⟨a, ha, rfl⟩ := hp
      exact ⟨_, ⟨a, ha, rfl⟩, rfl⟩
  have h := invN_run hf h0 hr he
  have htab : ∀ p, p ∈ w.table.map (·.1) ↔ p ∈ named (l.map (·.1)) as := by
    intro p
    refine ⟨?_, h.named p⟩
    intro hp
    obtain ⟨e, he, rfl⟩ := List.mem_map.1 hp
    exact (h.tab e he).1
  exact ⟨htab, fun t ht a b => (htab _).1 (h.known t ht a b)⟩

/-! ### Witnesses -/

/-- A parent that ends before the first stop of its child has been reported: with -f and PTRACE_SEIZE. -/
def orphan : List Act := [.stop 1, .clone 1 2 false false, .die 1, .reap 1]

def plain : Cfg := ⟨true, true, false, false, false⟩

/-- The case meets the hypotheses: the child is in the family, and is traced but not known. -/
theorem orphan_example : (run plain (start plain [(1, true)]) (orphan ++ [.wait])).map (fun w => (w.tasks, w.table, w.ended)) =
      some ([⟨2, true, true, true, false⟩], [], false) ∧
    family [1] (orphan ++ [.wait]) = [2] ∧
    (run plain (start plain [(1, true)]) (orphan ++ [.wait, .stop 2, .clone 2 3 false false, .stop 3])).map
      (fun w => (w.table, w.log)) = some ([(2, false), (3, false)], [.attached 2, .attached 3]) := by decide

/-- **C128** With -o '|command' strace ends while the child waits to be taken up: the comment in the source admits it. -/
theorem pipe_counterexample :
    let c : Cfg := { plain with pipe := true }
    (run c (start c [(1, true)]) orphan).map (·.ended) = some false ∧
    (run c (start c [(1, true)]) (orphan ++ [.wait])).map (fun w => (w.tasks, w.ended)) =
      some ([⟨2, false, false, false, false⟩], true) ∧
    family [1] (orphan ++ [.wait]) = [2] := by decide

/-- **C128** Without PTRACE_SEIZE a child that is made after strace has attached and before the first stop is not followed: the options
are set at the first stop only.  This is why the theorems ask for PTRACE_SEIZE, or for tasks that do not run before it. -/
theorem attach_counterexample :
    let c : Cfg := { plain with seize := false }
    (run c (start c [(1, false)]) [.clone 1 2 false false, .stop 1]).map (·.tasks) =
      some [⟨1, true, true, false, false⟩, ⟨2, false, false, false, false⟩] ∧
    family [1] [.clone 1 2 false false, .stop 1] = [2, 1] := by decide

/-- Without -f, a child made with CLONE_PTRACE is let go. -/
theorem let_go_example :
    let c : Cfg := { plain with follow := false }
    (run c (start c [(1, true)]) [.stop 1, .clone 1 2 false true, .stop 2]).map (fun w => (w.tasks, w.table, w.log)) =
      some ([⟨1, true, false, false, false⟩, ⟨2, false, false, false, false⟩], [(1, false)], [.detached 2]) := by decide

end Strace.Fork
