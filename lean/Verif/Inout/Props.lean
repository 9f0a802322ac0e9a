import Verif.Inout.Spec
namespace Strace.Inout
open Spec

/-! ## All arguments -/

/-- **Every argument is shown once, in order**, whatever the arguments, the memory and the outcome are. -/
theorem each_once (c : Call) (x : In) (before after : Mem) (r : Ret) :
    (shown c x before after r).map Prod.fst = List.range (nargs c) := by
  cases c <;> simp only [shown, entry, exit, nargs] <;> (repeat' split) <;>
    simp [disp, List.range, List.range.loop]

/-! ## Memory -/

theorem holds_tail {m : Mem} {a b : Nat} {l : List Nat} (h : Holds m a (b :: l)) : Holds m (a + 1) l := by
  intro i hi
  have := h (i + 1) (by simp; omega)
  rw [show a + 1 + i = a + (i + 1) by omega, this]
  simp

theorem umoven_holds {m : Mem} : ∀ {a : Nat} {l : List Nat}, Holds m a l → umoven m a l.length = some l
  | _, [], _ => rfl
  | a, b :: l, h => by
    have ih := umoven_holds (holds_tail h)
    have hb : m a = some b := by simpa using h 0 (by simp)
    simp [umoven, hb, ih]

theorem umoven_length {m : Mem} : ∀ {n a : Nat} {l : List Nat}, umoven m a n = some l → l.length = n
  | 0, _, _, h => by cases h; rfl
  | n + 1, a, l, h => by
    rw [umoven] at h
    cases h1 : m a with
    | none => simp [h1] at h
    | some b =>
      cases h2 : umoven m (a + 1) n with
      | none => simp [h1, h2] at h
      | some t =>
        simp [h1, h2] at h
        subst h
        simp [umoven_length h2]

theorem fetch_holds {m : Mem} {a n : Nat} {l : List Nat} (h : Holds m a l) (hn : l.length = n) (h0 : a ≠ 0) :
    fetch m true true a n n = .data l := by
  subst hn
  unfold fetch
  rw [if_pos ⟨h0, rfl, rfl⟩, umoven_holds h]
  simp

theorem fetch_prefix {m : Mem} {a n k : Nat} {l t : List Nat} (h : Holds m a (l ++ t)) (hk : l.length = k) (hn : k + t.length = n)
    (h0 : a ≠ 0) : fetch m true true a n k = .data l := by
  subst hn hk
  unfold fetch
  rw [if_pos ⟨h0, rfl, rfl⟩, show l.length + t.length = (l ++ t).length by simp, umoven_holds h]
  simp

/-- What the data shown of an argument can be. -/
theorem fetch_data {m : Mem} {v ok : Bool} {a n k : Nat} {d : List Nat} (h : fetch m v ok a n k = .data d) (hk : k ≤ n) :
    ok = true ∧ d.length = k := by
  unfold fetch at h
  split at h
  · rename_i hc
    refine ⟨hc.2.2, ?_⟩
    cases hu : umoven m a n with
    | none => simp [hu] at h
    | some l =>
      simp [hu] at h
      subst h
      simp [umoven_length hu, hk]
  · cases h

/-! ## Input -/

/-- The calls whose input is shown when they have ended only. -/
def LateInput (c : Call) : Prop := c = .adjtimex ∨ c = .clock_adjtime

/-- **What a call reads is shown as it was when the call began**, all but the structures of adjtimex and clock_adjtime, and of
rt_sigaction if 56 bytes after it can be read. -/
theorem input_partial (c : Call) (x : In) (before after : Mem) (r : Ret) (i n : Nat) (data : List Nat)
    (hi : (i, n) ∈ inputs c) (hl : ¬ LateInput c) (hv : x.verbose = true) (ha : Accepts c x.a)
    (h : Holds before (x.a i) data) (hn : data.length = n) (h0 : x.a i ≠ 0)
    (hs : c = .rt_sigaction → ∃ t, t.length = 56 ∧ Holds before (x.a i) (data ++ t)) :
    (i, Disp.data data) ∈ shown c x before after r := by
  have hf := fetch_holds h hn h0
  cases c <;> simp only [inputs, List.mem_cons, List.not_mem_nil, or_false, Prod.mk.injEq] at hi
  case adjtimex => exact absurd (Or.inl rfl) hl
  case clock_adjtime => exact absurd (Or.inr rfl) hl
  case rt_sigaction =>
    obtain ⟨t, ht, hh⟩ := hs rfl
    obtain ⟨rfl, rfl⟩ := hi
    simp [shown, entry, exit, disp, hv, fetch_prefix hh hn (by omega : 32 + t.length = 88) h0]
  case rt_sigprocmask =>
    obtain ⟨rfl, rfl⟩ := hi
    simp only [Accepts] at ha
    simp [shown, entry, exit, disp, hv, hf, ha]
  case rt_sigsuspend =>
    obtain ⟨rfl, rfl⟩ := hi
    simp only [Accepts] at ha
    simp [shown, entry, exit, disp, hv, hf, ha]
  case rt_sigtimedwait =>
    simp only [Accepts] at ha
    rcases hi with ⟨rfl, rfl⟩ | ⟨rfl, rfl⟩ <;> by_cases h1 : x.a 1 = 0 <;>
      simp [shown, entry, exit, disp, hv, hf, ha, h1]
  case settimeofday =>
    rcases hi with ⟨rfl, rfl⟩ | ⟨rfl, rfl⟩ <;> simp [shown, entry, exit, disp, hv, hf]
  all_goals
    obtain ⟨rfl, rfl⟩ := hi
    simp [shown, entry, exit, disp, hv, hf]

/-- What adjtimex is given is not shown if it fails: only an address, whatever the structure was; and if it does not fail, what is
shown is what it has been left with. -/
theorem adjtimex_input_lost (x : In) (before after : Mem) (r : Ret) :
    shown .adjtimex x before after r = [(0, fetch after x.verbose (r.err == 0) (x.a 0) 208 208)]
    ∧ (r.err ≠ 0 → shown .adjtimex x before after r = [(0, .addr (x.a 0))]) := by
  refine ⟨by simp [shown, entry, exit, disp], fun h => ?_⟩
  simp [shown, entry, exit, disp, fetch, h]

/-- Memory from address 4096 on, with an end. -/
def upToEnd (l : List Nat) : Mem := fun a => if 4096 ≤ a then l[a - 4096]? else none

/-- **An action of a signal at the end of a mapping is not shown**, though the kernel, which reads 32 bytes, takes it. -/
theorem sigaction_counterexample :
    Holds (upToEnd (List.replicate 32 0)) 4096 (List.replicate 32 0)
    ∧ shown .rt_sigaction ⟨fun i => if i = 1 then 4096 else if i = 3 then 8 else 0, true⟩ (upToEnd (List.replicate 32 0))
        (upToEnd (List.replicate 32 0)) ⟨0, 0⟩ = [(0, .num 0), (1, .addr 4096), (2, .addr 0), (3, .num 8)] := by
  refine ⟨?_, by decide⟩
  intro i hi
  simp only [List.length_replicate] at hi
  simp [upToEnd, hi]

/-! ## Output -/

/-- The flags of clock_nanosleep ask for nothing. -/
def PlainFlags (c : Call) (a : Nat → Nat) : Prop := c = .clock_nanosleep → a 1 = 0

/-- **What a call has written is shown as it has left it**: all of it, with the exceptions of an interrupted clock_nanosleep with
flags other than 0 and TIMER_ABSTIME, and of rt_sigaction if the memory ends. -/
theorem output_partial (c : Call) (x : In) (before after : Mem) (r : Ret) (found : Bool) (i n : Nat) (data : List Nat)
    (hw : (i, n) ∈ written c x.a r found) (hg : Legal c r found) (hp : PlainFlags c x.a) (hv : x.verbose = true) (ha : Accepts c x.a)
    (h : Holds after (x.a i) data) (hn : data.length = n) (h0 : x.a i ≠ 0)
    (hs : c = .rt_sigaction → ∃ t, t.length = 56 ∧ Holds after (x.a i) (data ++ t))
    (hc : c = .waitid → i = 2 → ∃ t, t.length = 100 ∧ Holds after (x.a i) (data ++ t)) :
    ∃ t, (i, Disp.data t) ∈ shown c x before after r
      ∧ (if c = .waitid ∧ i = 2 then (data.take 4 = [0, 0, 0, 0] ∧ t = data.take 4 ∨ t.take 28 = data) else t = data) := by
  have hf := fetch_holds h hn h0
  unfold written at hw
  by_cases he : r.err = 0
  · rw [if_pos he] at hw
    cases c <;> simp only [onSuccess, List.mem_cons, List.not_mem_nil, or_false, Prod.mk.injEq] at hw
    case rt_sigaction =>
      obtain ⟨t, ht, hh⟩ := hs rfl
      obtain ⟨rfl, rfl⟩ := hw
      exact ⟨data, by simp [shown, entry, exit, disp, hv, he, fetch_prefix hh hn (by omega : 32 + t.length = 88) h0], by simp⟩
    case rt_sigprocmask =>
      obtain ⟨rfl, rfl⟩ := hw
      simp only [Accepts] at ha
      exact ⟨data, by simp [shown, entry, exit, disp, hv, he, hf, ha], by simp⟩
    case rt_sigpending =>
      obtain ⟨rfl, rfl⟩ := hw
      simp only [Accepts] at ha
      refine ⟨data, ?_, by simp⟩
      simp only [shown, entry, exit, disp, hv, he, List.map_nil, List.nil_append, List.map_cons, List.mem_cons, beq_self_eq_true]
      left
      rw [if_neg (by omega), hf]
    case rt_sigtimedwait =>
      obtain ⟨rfl, rfl⟩ := hw
      exact ⟨data, by simp [shown, entry, exit, disp, hv, he, hf, h0], by simp⟩
    case wait4 =>
      have hr := (hg.2.2.1 rfl he)
      cases found with
      | false => simp at hw
      | true =>
        have hp := hr.1 rfl
        simp only [if_true, List.mem_cons, List.not_mem_nil, or_false, Prod.mk.injEq] at hw
        have hz : r.rval ≠ 0 := by omega
        rcases hw with ⟨rfl, rfl⟩ | ⟨rfl, rfl⟩ <;>
          exact ⟨data, by simp [shown, entry, exit, disp, hv, he, hf, hz, hp], by simp⟩
    case waitid =>
      have h2 : ∀ k, (i, k) = (2, 28) → i = 2 ∧ k = 28 := by simp
      by_cases hi : i = 2
      · have hn28 : n = 28 := by
          subst hi
          cases found <;> simp at hw <;> exact hw
        obtain ⟨t, ht, hh⟩ := hc rfl hi
        have hft := fetch_holds hh (by rw [List.length_append]; omega : (data ++ t).length = 128) h0
        subst hi hn28
        have ht4 : (data ++ t).take 4 = data.take 4 := List.take_append_of_le_length (by omega)
        refine ⟨(data ++ t).take (if data.take 4 = [0, 0, 0, 0] then 4 else 48), ?_, ?_⟩
        · simp [shown, entry, exit, disp, hv, he, hft, ht4]
        · rw [if_pos (by simp)]
          by_cases hz : data.take 4 = [0, 0, 0, 0]
          · left; rw [if_pos hz]; exact ⟨hz, ht4⟩
          · right
            rw [if_neg hz, List.take_take, show min 28 48 = 28 by omega, List.take_append_of_le_length (by omega),
              List.take_of_length_le (by omega)]
      · have : (i = 4 ∧ n = 144) := by
          cases found <;> simp [hi] at hw <;> exact hw
        obtain ⟨rfl, rfl⟩ := this
        exact ⟨data, by simp [shown, entry, exit, disp, hv, he, hf], by simp⟩
    case getcpu =>
      rcases hw with ⟨rfl, rfl⟩ | ⟨rfl, rfl⟩ <;> exact ⟨data, by simp [shown, entry, exit, disp, hv, he, hf], by simp⟩
    case get_robust_list =>
      rcases hw with ⟨rfl, rfl⟩ | ⟨rfl, rfl⟩ <;> exact ⟨data, by simp [shown, entry, exit, disp, hv, he, hf], by simp⟩
    case gettimeofday =>
      rcases hw with ⟨rfl, rfl⟩ | ⟨rfl, rfl⟩ <;> exact ⟨data, by simp [shown, entry, exit, disp, hv, he, hf], by simp⟩
    all_goals
      obtain ⟨rfl, rfl⟩ := hw
      exact ⟨data, by simp [shown, entry, exit, disp, hv, he, hf], by simp⟩
  · rw [if_neg he] at hw
    cases c <;> simp only [List.not_mem_nil] at hw
    case nanosleep =>
      by_cases h5 : r.err = 516
      · simp only [h5, if_true, List.mem_cons, List.not_mem_nil, or_false, Prod.mk.injEq] at hw
        obtain ⟨rfl, rfl⟩ := hw
        exact ⟨data, by simp [shown, entry, exit, disp, hv, hf, isErestart, h5], by simp⟩
      · simp [h5] at hw
    case clock_nanosleep =>
      have hz := hp rfl
      by_cases h5 : r.err = 516
      · simp only [h5, hz, Nat.zero_mod, and_self, if_true, List.mem_cons, List.not_mem_nil, or_false, Prod.mk.injEq] at hw
        obtain ⟨rfl, rfl⟩ := hw
        exact ⟨data, by simp [shown, entry, exit, disp, hv, hf, isErestart, h5, hz], by simp⟩
      · simp [h5] at hw

/-- **The rest of the time is not shown** when clock_nanosleep with other flags has been interrupted, though it has been written:
the kernel looks at TIMER_ABSTIME only. -/
theorem clock_nanosleep_counterexample (before after : Mem) (a : Nat → Nat) (h1 : a 1 = 2) (v : Bool) :
    (3, 16) ∈ written .clock_nanosleep a ⟨-1, 516⟩ false
    ∧ (3, Disp.addr (a 3)) ∈ shown .clock_nanosleep ⟨a, v⟩ before after ⟨-1, 516⟩ := by
  simp [written, h1, shown, entry, exit, disp]

/-! ## Nothing else -/

/-- What is known of an item of which data are shown. -/
def DataOf (x : In) (ok : Bool) (i : Nat) (d : List Nat) : Item → Prop
  | .reg _ => False
  | .ptr _ => False
  | .obj j n k => j = i ∧ (k ≤ n → ok = true ∧ d.length = k)
  | .cleared j n => j = i ∧ d.length = n
  | .set j l min => j = i ∧ ok = true ∧ d.length = x.a l ∧ min ≤ x.a l ∧ x.a l ≤ 8
  | .child j => j = i ∧ ok = true ∧ d.length ≤ 48
  | .kept j n => j = i ∧ d.length = n

theorem disp_data {x : In} {before m : Mem} {ok : Bool} {it : Item} {i : Nat} {d : List Nat}
    (h : disp x before m ok it = (i, .data d)) : DataOf x ok i d it := by
  cases it with
  | reg j => simp [disp] at h
  | ptr j => simp [disp] at h
  | obj j n k =>
    simp only [disp, Prod.mk.injEq] at h
    exact ⟨h.1, fun hk => fetch_data h.2 hk⟩
  | cleared j n =>
    simp only [disp, Prod.mk.injEq] at h
    exact ⟨h.1, (fetch_data h.2 (Nat.le_refl _)).2⟩
  | set j l min =>
    simp only [disp, Prod.mk.injEq] at h
    obtain ⟨h1, h2⟩ := h
    by_cases hc : x.a l < min ∨ x.a l > 8
    · rw [if_pos hc] at h2; cases h2
    · rw [if_neg hc] at h2
      have := fetch_data h2 (Nat.le_refl _)
      exact ⟨h1, this.1, this.2, by omega, by omega⟩
  | child j =>
    simp only [disp, Prod.mk.injEq] at h
    obtain ⟨h1, h2⟩ := h
    cases hf : fetch m x.verbose ok (x.a j) 128 128 with
    | num v => rw [hf] at h2; cases h2
    | addr v => rw [hf] at h2; cases h2
    | data l =>
      rw [hf] at h2
      simp only [Disp.data.injEq] at h2
      subst h2
      refine ⟨h1, (fetch_data hf (Nat.le_refl _)).1, ?_⟩
      rw [List.length_take]
      split <;> omega
  | kept j n =>
    simp only [disp, Prod.mk.injEq] at h
    exact ⟨h.1, (fetch_data h.2 (Nat.le_refl _)).2⟩

/-- **No data are shown of a pointer that the call has neither read through nor written through**: except by waitid. -/
theorem only_partial (c : Call) (x : In) (before after : Mem) (r : Ret) (found : Bool) (hc : c ≠ .waitid) (hg : Legal c r found)
    (i : Nat) (d : List Nat) (h : (i, Disp.data d) ∈ shown c x before after r) (ha : Accepts c x.a) :
    (i, d.length) ∈ inputs c ∨ (i, d.length) ∈ written c x.a r found := by
  obtain ⟨g1, g2, g3, g4⟩ := hg
  unfold shown at h
  rw [List.mem_append] at h
  rcases h with h | h
  · obtain ⟨it, hit, hd⟩ := List.mem_map.1 h
    have hdd := disp_data hd
    clear hd h
    left
    cases c
    case rt_sigtimedwait =>
      simp only [entry] at hit
      simp only [Accepts] at ha
      split at hit <;> simp only [List.mem_cons, List.not_mem_nil, or_false] at hit <;>
        (repeat' (rcases hit with hit | hit)) <;> (try subst hit) <;> simp [DataOf] at hdd <;> simp [inputs, hdd, ha]
      all_goals (obtain ⟨rfl, h1⟩ := hdd; simp)
    all_goals
      simp only [entry, List.mem_cons, List.not_mem_nil, or_false] at hit
      try simp only [Accepts] at ha
      try (repeat' (rcases hit with hit | hit))
    all_goals
      try subst hit
      simp [DataOf] at hdd
    all_goals
      obtain ⟨rfl, h1⟩ := hdd
      simp_all [inputs]
  · obtain ⟨it, hit, hd⟩ := List.mem_map.1 h
    have hdd := disp_data hd
    clear hd h
    unfold written
    cases c
    case nanosleep =>
      have g := g4 (Or.inl rfl)
      simp only [exit] at hit
      split at hit
      · rename_i he
        simp only [List.mem_cons, List.not_mem_nil, or_false] at hit
        subst hit
        have : r.err = 516 := by simp [isErestart, g.1, g.2.1, g.2.2] at he; exact he
        obtain ⟨rfl, h1⟩ := hdd
        simp [this, h1]
      · simp only [List.mem_cons, List.not_mem_nil, or_false] at hit
        subst hit
        exact hdd.elim
    case clock_nanosleep =>
      have g := g4 (Or.inr rfl)
      simp only [exit] at hit
      split at hit
      · rename_i he
        simp only [List.mem_cons, List.not_mem_nil, or_false] at hit
        subst hit
        have : r.err = 516 := by
          have := he.2
          simp [isErestart, g.1, g.2.1, g.2.2] at this; exact this
        obtain ⟨rfl, h1⟩ := hdd
        simp [this, h1, he.1]
      · simp only [List.mem_cons, List.not_mem_nil, or_false] at hit
        subst hit
        exact hdd.elim
    case waitid => exact absurd rfl hc
    case wait4 =>
      have hr := g3 rfl
      simp only [exit, List.mem_cons, List.not_mem_nil, or_false] at hit
      rcases hit with hit | hit | hit
      · split at hit
        · subst hit; exact hdd.elim
        · rename_i hz
          subst hit
          obtain ⟨rfl, h1⟩ := hdd
          obtain ⟨h1, h2⟩ := h1 (Nat.le_refl _)
          have he : r.err = 0 := by simpa using h1
          have hf := (hr he).2 (by have := g2 he; omega)
          simp [he, onSuccess, hf, h2]
      · subst hit; exact hdd.elim
      · split at hit
        · rename_i hz
          subst hit
          obtain ⟨rfl, h1⟩ := hdd
          obtain ⟨h1, h2⟩ := h1 (Nat.le_refl _)
          have he : r.err = 0 := by simpa using h1
          have hf := (hr he).2 hz
          simp [he, onSuccess, hf, h2]
        · subst hit; exact hdd.elim
    case rt_sigtimedwait =>
      simp only [exit] at hit
      split at hit
      · simp only [List.mem_cons, List.not_mem_nil, or_false] at hit
        rcases hit with rfl | rfl | rfl
        · obtain ⟨rfl, h1⟩ := hdd
          obtain ⟨h1, h2⟩ := h1 (Nat.le_refl _)
          have he : r.err = 0 := by simpa using h1
          simp [he, onSuccess, h2]
        · obtain ⟨rfl, h1⟩ := hdd
          simp [inputs, h1]
        · exact hdd.elim
      · simp at hit
    case sched_rr_get_interval =>
      simp only [exit] at hit
      split at hit
      · simp only [List.mem_cons, List.not_mem_nil, or_false] at hit
        subst hit
        exact hdd.elim
      · simp only [List.mem_cons, List.not_mem_nil, or_false] at hit
        subst hit
        obtain ⟨rfl, h1⟩ := hdd
        obtain ⟨h1, h2⟩ := h1 (Nat.le_refl _)
        have he : r.err = 0 := by simpa using h1
        simp [he, onSuccess, h2]
    case rt_sigprocmask =>
      simp only [exit, List.mem_cons, List.not_mem_nil, or_false] at hit
      simp only [Accepts] at ha
      rcases hit with rfl | rfl
      · obtain ⟨rfl, h1, h2, _⟩ := hdd
        have he : r.err = 0 := by simpa using h1
        simp [he, onSuccess, h2, ha]
      · exact hdd.elim
    case rt_sigpending =>
      simp only [exit, List.mem_cons, List.not_mem_nil, or_false] at hit
      rcases hit with rfl | rfl
      · obtain ⟨rfl, h1, h2, _⟩ := hdd
        have he : r.err = 0 := by simpa using h1
        simp [he, onSuccess, h2]
      · exact hdd.elim
    all_goals
      simp only [exit, List.mem_cons, List.not_mem_nil, or_false] at hit
      try (repeat' (rcases hit with hit | hit))
    all_goals
      try subst hit
      first
      | exact hdd.elim
      | (obtain ⟨rfl, h1⟩ := hdd
         obtain ⟨h1, h2⟩ := h1 (by omega)
         have he : r.err = 0 := by simpa using h1
         simp [he, onSuccess, h2])

/-- **After waitid memory is shown that it has not written**: the usage, if there was no child to be waited for; and of a child
the times in siginfo_t, which it does not set. -/
theorem waitid_counterexample (x : In) (before after : Mem) (d : List Nat) (h0 : x.a 4 ≠ 0) (hv : x.verbose = true)
    (h : Holds after (x.a 4) d) (hd : d.length = 144) :
    (4, Disp.data d) ∈ shown .waitid x before after ⟨0, 0⟩ ∧ ∀ n, (4, n) ∉ written .waitid x.a ⟨0, 0⟩ false
    ∧ Legal .waitid ⟨0, 0⟩ false := by
  refine ⟨?_, fun n => ⟨by simp [written, onSuccess], by simp [Legal]⟩⟩
  simp [shown, entry, exit, disp, hv, fetch_holds h hd h0]

theorem waitid_times (x : In) (before after : Mem) (r : Ret) (l : List Nat) (h0 : x.a 2 ≠ 0) (hv : x.verbose = true) (he : r.err = 0)
    (h : Holds after (x.a 2) l) (hl : l.length = 128) (hs : l.take 4 ≠ [0, 0, 0, 0]) :
    (2, Disp.data (l.take 48)) ∈ shown .waitid x before after r
    ∧ ∀ n, (2, n) ∈ written .waitid x.a r true → n ≤ 28 := by
  constructor
  · simp [shown, entry, exit, disp, hv, he, fetch_holds h hl h0, hs]
  · intro n hn
    simp [written, he, onSuccess] at hn
    omega

/-! ## Failures -/

/-- **After a failure nothing is shown of memory but input**, and the rest of the time after an interrupted sleep. -/
theorem failed_only_input (c : Call) (x : In) (before after after' : Mem) (r : Ret) (he : r.err ≠ 0)
    (hs : ¬ ((c = .nanosleep ∨ c = .clock_nanosleep) ∧ isErestart r.err = true)) :
    shown c x before after r = shown c x before after' r := by
  have hb : (r.err == 0) = false := by simp [he]
  have hf : ∀ m v a n k, fetch m v false a n k = .addr a := by intro m v a n k; simp [fetch]
  unfold shown
  congr 1
  apply List.map_congr_left
  intro it hit
  rw [hb]
  cases it with
  | cleared i n =>
    exfalso
    apply hs
    cases c <;> simp only [exit] at hit <;> (try split at hit) <;>
      simp only [List.mem_cons, List.not_mem_nil, or_false, reduceCtorEq, or_self, or_false, false_or] at hit
    · rename_i h
      exact ⟨Or.inl rfl, h⟩
    · rename_i h
      exact ⟨Or.inr rfl, h.2⟩
    all_goals
      exfalso
      revert hit
      (repeat' split) <;> simp
  | _ => simp [disp, hf]

/-! ## Cases -/

/-- nanosleep({1, 0}, rem) that has been interrupted: the rest is shown. -/
example : shown .nanosleep ⟨fun i => if i = 0 then 4096 else 4112, true⟩
    (upToEnd (1 :: List.replicate 31 0)) (upToEnd (1 :: List.replicate 15 0 ++ 7 :: List.replicate 15 0)) ⟨-1, 516⟩
    = [(0, .data (1 :: List.replicate 15 0)), (1, .data (7 :: List.replicate 15 0))] := by decide

/-- The same, not interrupted: the address. -/
example : shown .nanosleep ⟨fun i => if i = 0 then 4096 else 4112, true⟩
    (upToEnd (1 :: List.replicate 31 0)) (upToEnd (1 :: List.replicate 15 0 ++ 7 :: List.replicate 15 0)) ⟨0, 0⟩
    = [(0, .data (1 :: List.replicate 15 0)), (1, .addr 4112)] := by decide

example : Legal .nanosleep ⟨-1, 516⟩ false ∧ (1, 16) ∈ written .nanosleep (fun _ => 0) ⟨-1, 516⟩ false := by
  simp [Legal, written]

example : Legal .wait4 ⟨7, 0⟩ true ∧ (3, 144) ∈ written .wait4 (fun _ => 0) ⟨7, 0⟩ true := by
  simp [Legal, written, onSuccess]

example : Accepts .rt_sigpending (fun _ => 8) ∧ Accepts .rt_sigprocmask (fun _ => 8) := by simp [Accepts]

/-- prlimit64 with one structure for both: each as it was. -/
example : shown .prlimit64 ⟨fun i => if i < 2 then 0 else 4096, true⟩ (upToEnd (List.replicate 16 1)) (upToEnd (List.replicate 16 2)) ⟨0, 0⟩
    = [(0, .num 0), (1, .num 0), (2, .data (List.replicate 16 1)), (3, .data (List.replicate 16 2))] := by decide

end Strace.Inout
