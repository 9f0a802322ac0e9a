import Verif.Count.Model
import Verif.Time.Props
/-!
# C42, C43, C63: the summary table
-/
namespace Strace.Count
open Strace.Time

/-! ### Specification -/

/-- nanoseconds counted for a call: time less overhead, not below zero -/
def share (overhead : Ts) (c : Call) : Int := max 0 (ns c.stop - ns c.start - ns overhead)

/-- a clock reading or the overhead given: less than 73 billion years -/
def Clock (t : Ts) : Prop := Norm t ∧ 0 ≤ t.sec ∧ t.sec < 2 ^ 61

/-- the calls of one system call -/
def callsOf (h : List Call) (p n : Nat) : List Call := h.filter fun c => decide (c.pers = p) && decide (c.scno = n)

/-- the calls of one personality that have a name -/
def callsOfPers (nsys : Nat → Nat) (h : List Call) (p : Nat) : List Call :=
  h.filter fun c => decide (c.pers = p) && decide (c.scno < nsys p)

/-- numbers and times are those of the calls `hs` -/
structure Stat (overhead : Ts) (hs : List Call) (time tmin tmax : Ts) (calls errors : Nat) : Prop where
  calls : calls = hs.length
  errors : errors = (hs.filter fun c => c.failed).length
  ntime : Norm time
  time : ns time = (hs.map (share overhead)).sum
  nmin : Norm tmin
  nmax : Norm tmax
  min_none : hs = [] → tmin = maxTs
  max_none : hs = [] → tmax = zeroTs
  min_le : ∀ c ∈ hs, ns tmin ≤ share overhead c
  le_max : ∀ c ∈ hs, share overhead c ≤ ns tmax
  min_mem : hs ≠ [] → ∃ c ∈ hs, ns tmin = share overhead c
  max_mem : hs ≠ [] → ∃ c ∈ hs, ns tmax = share overhead c

def RowStat (overhead : Ts) (hs : List Call) (r : Row) : Prop :=
  Stat overhead hs r.time r.tmin r.tmax r.calls r.errors

/-! ### Sums -/

theorem share_nonneg (o : Ts) (c : Call) : 0 ≤ share o c := by unfold share; omega

theorem sum_nonneg (o : Ts) (l : List Call) : 0 ≤ (l.map (share o)).sum := by
  induction l with
  | nil => simp
  | cons c l ih =>
    have := share_nonneg o c
    simp only [List.map_cons, List.sum_cons]
    omega

theorem sum_filter (o : Ts) (f : Call → Bool) (l : List Call) :
    ((l.filter f).map (share o)).sum ≤ (l.map (share o)).sum := by
  induction l with
  | nil => simp
  | cons c l ih =>
    have := share_nonneg o c
    rw [List.filter_cons]
    simp only [List.map_cons, List.sum_cons]
    split
    · simp only [List.map_cons, List.sum_cons]
      omega
    · omega

theorem share_le_sum (o : Ts) (l : List Call) (c : Call) (h : c ∈ l) : share o c ≤ (l.map (share o)).sum := by
  induction l with
  | nil => simp at h
  | cons d l ih =>
    simp only [List.map_cons, List.sum_cons]
    have := share_nonneg o d
    rcases List.mem_cons.mp h with h | h
    · subst h
      have := sum_nonneg o l
      omega
    · have := ih h
      omega

theorem perm_sum (o : Ts) (l l' : List Call) (h : l.Perm l') : (l.map (share o)).sum = (l'.map (share o)).sum := by
  induction h with
  | nil => rfl
  | cons c _ ih => simp only [List.map_cons, List.sum_cons, ih]
  | swap c d l => simp only [List.map_cons, List.sum_cons]; omega
  | trans _ _ h1 h2 => rw [h1, h2]

theorem stat_perm (o : Ts) (hs hs' : List Call) (t mn mx : Ts) (n e : Nat) (hp : hs.Perm hs')
    (h : Stat o hs t mn mx n e) : Stat o hs' t mn mx n e := by
  have hnil : hs' = [] → hs = [] := fun hh => by subst hh; exact hp.eq_nil
  have hsum : (hs'.map (share o)).sum = (hs.map (share o)).sum := (perm_sum o _ _ hp).symm
  exact ⟨by rw [h.calls, hp.length_eq], by rw [h.errors, (hp.filter _).length_eq], h.ntime, by rw [hsum]; exact h.time, h.nmin, h.nmax,
    fun hh => h.min_none (hnil hh), fun hh => h.max_none (hnil hh), fun c hc => h.min_le c (hp.mem_iff.mpr hc),
    fun c hc => h.le_max c (hp.mem_iff.mpr hc),
    fun hh => by
      obtain ⟨c, hc, e⟩ := h.min_mem (fun h0 => hh (by subst h0; exact hp.symm.eq_nil))
      exact ⟨c, hp.mem_iff.mp hc, e⟩,
    fun hh => by
      obtain ⟨c, hc, e⟩ := h.max_mem (fun h0 => hh (by subst h0; exact hp.symm.eq_nil))
      exact ⟨c, hp.mem_iff.mp hc, e⟩⟩

theorem stat_nil (o : Ts) : Stat o [] zeroTs maxTs zeroTs 0 0 := by
  refine ⟨rfl, rfl, ?_, rfl, ?_, ?_, fun _ => rfl, fun _ => rfl, by simp, by simp, by simp, by simp⟩
  · unfold Norm zeroTs; decide
  · unfold Norm maxTs; decide
  · unfold Norm zeroTs; decide

/-- two groups of calls together -/
theorem stat_merge (o : Ts) (hs1 hs2 : List Call) (t1 mn1 mx1 t2 mn2 mx2 : Ts) (n1 e1 n2 e2 : Nat)
    (h1 : Stat o hs1 t1 mn1 mx1 n1 e1) (h2 : Stat o hs2 t2 mn2 mx2 n2 e2)
    (hsum : ((hs1 ++ hs2).map (share o)).sum < 2 ^ 62 * 1000000000) (hlen : hs1.length + hs2.length < 2 ^ 64) :
    ∃ t, tsAdd t1 t2 = some t ∧
      Stat o (hs1 ++ hs2) t (tsMin mn1 mn2) (tsMax mx1 mx2) ((n1 + n2) % 2 ^ 64) ((e1 + e2) % 2 ^ 64) := by
  have s1 := h1.time
  have s2 := h2.time
  have g1 := sum_nonneg o hs1
  have g2 := sum_nonneg o hs2
  have k1 := h1.ntime
  have k2 := h2.ntime
  rw [List.map_append, List.sum_append] at hsum
  have ex : ∃ t, tsAdd t1 t2 = some t ∧ Norm t ∧ ns t = ns t1 + ns t2 := by
    unfold ns at s1 s2
    unfold Norm at k1 k2
    exact tsAdd_spec t1 t2 h1.ntime h2.ntime (by unfold Fits; omega) (by unfold Fits; omega)
  obtain ⟨t, ht, htn, hts⟩ := ex
  have mn := tsMin_spec mn1 mn2 h1.nmin h2.nmin
  have mx := tsMax_spec mx1 mx2 h1.nmax h2.nmax
  have hbig : ns maxTs = 2 ^ 63 * 1000000000 - 1 := by decide
  have hz : ns zeroTs = 0 := by decide
  have hf1 := List.length_filter_le (fun c : Call => c.failed) hs1
  have hf2 := List.length_filter_le (fun c : Call => c.failed) hs2
  refine ⟨t, ht, ⟨?_, ?_, htn, ?_, ?_, ?_, ?_, ?_, ?_, ?_, ?_, ?_⟩⟩
  · rw [h1.calls, h2.calls, List.length_append, Nat.mod_eq_of_lt (by omega)]
  · rw [h1.errors, h2.errors, List.filter_append, List.length_append, Nat.mod_eq_of_lt (by omega)]
  · rw [hts, s1, s2, List.map_append, List.sum_append]
  · rcases mn.1 with h | h <;> rw [h]
    · exact h1.nmin
    · exact h2.nmin
  · rcases mx.1 with h | h <;> rw [h]
    · exact h1.nmax
    · exact h2.nmax
  · intro h
    have := List.append_eq_nil_iff.mp h
    rcases mn.1 with e | e <;> rw [e]
    · exact h1.min_none this.1
    · exact h2.min_none this.2
  · intro h
    have := List.append_eq_nil_iff.mp h
    rcases mx.1 with e | e <;> rw [e]
    · exact h1.max_none this.1
    · exact h2.max_none this.2
  · intro c hc
    rcases List.mem_append.mp hc with hc | hc
    · have := h1.min_le c hc
      omega
    · have := h2.min_le c hc
      omega
  · intro c hc
    rcases List.mem_append.mp hc with hc | hc
    · have := h1.le_max c hc
      omega
    · have := h2.le_max c hc
      omega
  · intro hne
    by_cases e1 : hs1 = []
    · have h2ne : hs2 ≠ [] := fun h => hne (by rw [e1, h]; rfl)
      obtain ⟨c, hc, e⟩ := h2.min_mem h2ne
      refine ⟨c, List.mem_append_right _ hc, ?_⟩
      have hm := h1.min_none e1
      have hle := share_le_sum o hs2 c hc
      rw [mn.2, hm, hbig]
      omega
    · obtain ⟨c1, hc1, e1'⟩ := h1.min_mem e1
      by_cases e2 : hs2 = []
      · refine ⟨c1, List.mem_append_left _ hc1, ?_⟩
        have hm := h2.min_none e2
        have hle := share_le_sum o hs1 c1 hc1
        rw [mn.2, hm, hbig]
        omega
      · obtain ⟨c2, hc2, e2'⟩ := h2.min_mem e2
        rcases mn.1 with e | e <;> rw [e]
        · exact ⟨c1, List.mem_append_left _ hc1, e1'⟩
        · exact ⟨c2, List.mem_append_right _ hc2, e2'⟩
  · intro hne
    by_cases e1 : hs1 = []
    · have h2ne : hs2 ≠ [] := fun h => hne (by rw [e1, h]; rfl)
      obtain ⟨c, hc, e⟩ := h2.max_mem h2ne
      refine ⟨c, List.mem_append_right _ hc, ?_⟩
      have hm := h1.max_none e1
      have := share_nonneg o c
      rw [mx.2, hm, hz]
      omega
    · obtain ⟨c1, hc1, e1'⟩ := h1.max_mem e1
      by_cases e2 : hs2 = []
      · refine ⟨c1, List.mem_append_left _ hc1, ?_⟩
        have hm := h2.max_none e2
        have := share_nonneg o c1
        rw [mx.2, hm, hz]
        omega
      · obtain ⟨c2, hc2, e2'⟩ := h2.max_mem e2
        rcases mx.1 with e | e <;> rw [e]
        · exact ⟨c1, List.mem_append_left _ hc1, e1'⟩
        · exact ⟨c2, List.mem_append_right _ hc2, e2'⟩

/-! ### One call -/

theorem spent_spec (o : Ts) (c : Call) (ho : Clock o) (hs : Clock c.stop) (hb : Clock c.start) :
    ∃ w, spent o c = some w ∧ Norm w ∧ ns w = share o c := by
  obtain ⟨on, o0, o1⟩ := ho
  obtain ⟨sn, s0, s1⟩ := hs
  obtain ⟨bn, b0, b1⟩ := hb
  obtain ⟨w1, e1, n1, v1⟩ := tsSub_spec c.stop c.start sn bn (by unfold Fits; omega) (by unfold Fits; omega)
  have hw : -(2 ^ 62 : Int) ≤ w1.sec ∧ w1.sec ≤ 2 ^ 61 := by
    unfold Norm at sn bn n1
    unfold ns at v1
    omega
  obtain ⟨w2, e2, n2, v2⟩ := tsSub_spec w1 o n1 on (by unfold Fits; omega) (by unfold Fits; omega)
  unfold spent
  rw [e1]
  dsimp only
  rw [e2]
  have hzn : Norm zeroTs := by unfold Norm zeroTs; decide
  have hz : ns zeroTs = 0 := by decide
  have hm := tsMax_spec w2 zeroTs n2 hzn
  refine ⟨_, rfl, ?_, ?_⟩
  · rcases hm.1 with h | h <;> rw [h]
    · exact n2
    · exact hzn
  · rw [hm.2, hz, v2, v1]
    unfold share
    omega

theorem bump_spec (o : Ts) (hs : List Call) (c : Call) (r : Row) (ho : Clock o) (h1 : Clock c.stop) (h2 : Clock c.start)
    (hr : RowStat o hs r) (hsum : ((hs ++ [c]).map (share o)).sum < 2 ^ 62 * 1000000000) (hlen : hs.length + 1 < 2 ^ 64) :
    ∃ r', bump o c r = some r' ∧ RowStat o (hs ++ [c]) r' := by
  obtain ⟨w, hw, wn, wv⟩ := spent_spec o c ho h1 h2
  have single : Stat o [c] w w w 1 (if c.failed = true then 1 else 0) := by
    refine ⟨rfl, ?_, wn, ?_, wn, wn, by simp, by simp, ?_, ?_, ?_, ?_⟩
    · cases hcf : c.failed <;> simp [hcf]
    · simp [wv]
    · intro d hd
      rw [List.mem_singleton] at hd
      rw [hd, wv]
      exact Int.le_refl _
    · intro d hd
      rw [List.mem_singleton] at hd
      rw [hd, wv]
      exact Int.le_refl _
    · intro _
      exact ⟨c, by simp, wv⟩
    · intro _
      exact ⟨c, by simp, wv⟩
  obtain ⟨t, ht, hst⟩ := stat_merge o hs [c] _ _ _ _ _ _ _ _ _ _ hr single hsum (by simpa using hlen)
  unfold bump
  rw [hw]
  dsimp only
  rw [ht]
  refine ⟨_, rfl, ?_⟩
  unfold RowStat
  dsimp only
  have he : (if c.failed = true then (r.errors + 1) % 2 ^ 64 else r.errors) =
      (r.errors + if c.failed = true then 1 else 0) % 2 ^ 64 := by
    have hle := List.length_filter_le (fun c : Call => c.failed) hs
    have := hr.errors
    cases c.failed
    · simp
      omega
    · simp
  rw [he]
  exact hst

/-! ### Histories -/

/-- the tables after a history -/
def Inv (o : Ts) (nsys : Nat → Nat) (h : List Call) (t : Tabs) : Prop :=
  ∀ p, (t p = none ↔ callsOfPers nsys h p = []) ∧
    ∀ rows, t p = some rows → rows.length = nsys p ∧ ∀ n, n < nsys p → RowStat o (callsOf h p n) (rows.getD n row0)

theorem callsOf_none (nsys : Nat → Nat) (h : List Call) (p n : Nat) (hn : n < nsys p) (he : callsOfPers nsys h p = []) :
    callsOf h p n = [] := by
  unfold callsOf
  unfold callsOfPers at he
  rw [List.filter_eq_nil_iff] at he ⊢
  intro c hc hh
  apply he c hc
  simp at hh ⊢
  omega

theorem count_step (o : Ts) (nsys : Nat → Nat) (h : List Call) (c : Call) (t : Tabs) (ho : Clock o) (h1 : Clock c.stop)
    (h2 : Clock c.start) (hi : Inv o nsys h t) (hsum : ((h ++ [c]).map (share o)).sum < 2 ^ 62 * 1000000000)
    (hlen : h.length + 1 < 2 ^ 64) : ∃ t', count o nsys t c = some t' ∧ Inv o nsys (h ++ [c]) t' := by
  unfold count
  by_cases hc : c.scno < nsys c.pers
  · rw [if_pos hc]
    -- the rows before
    have hrows : ∃ rows, rowsOf (nsys c.pers) (t c.pers) = rows ∧ rows.length = nsys c.pers ∧
          ∀ n, n < nsys c.pers → RowStat o (callsOf h c.pers n) (rows.getD n row0) := by
      cases ht : t c.pers with
      | none =>
        refine ⟨List.replicate (nsys c.pers) row0, rfl, by simp, ?_⟩
        intro n hn
        rw [callsOf_none nsys h c.pers n hn ((hi c.pers).1.mp ht)]
        rw [List.getD_eq_getElem?_getD, List.getElem?_replicate, if_pos hn]
        exact stat_nil o
      | some rows => exact ⟨rows, rfl, (hi c.pers).2 rows ht⟩
    obtain ⟨rows, hre, hrl, hrs⟩ := hrows
    dsimp only
    rw [hre]
    have hof : callsOf (h ++ [c]) c.pers c.scno = callsOf h c.pers c.scno ++ [c] := by
      unfold callsOf
      rw [List.filter_append]
      simp
    have hsum' : ((callsOf h c.pers c.scno ++ [c]).map (share o)).sum < 2 ^ 62 * 1000000000 := by
      rw [← hof]
      exact Int.lt_of_le_of_lt (sum_filter o _ _) hsum
    have hlen' : (callsOf h c.pers c.scno).length + 1 < 2 ^ 64 := by
      have := List.length_filter_le (fun d : Call => decide (d.pers = c.pers) && decide (d.scno = c.scno)) h
      unfold callsOf
      omega
    obtain ⟨r, hb, hr⟩ := bump_spec o _ c _ ho h1 h2 (hrs c.scno hc) hsum' hlen'
    rw [hb]
    refine ⟨_, rfl, ?_⟩
    intro p
    dsimp only
    by_cases hp : p = c.pers
    · subst hp
      rw [if_pos rfl]
      constructor
      · constructor
        · intro h; simp at h
        · intro h
          unfold callsOfPers at h
          rw [List.filter_append] at h
          have := (List.append_eq_nil_iff.mp h).2
          simp [hc] at this
      · intro rows' hrows'
        injection hrows' with hrows'
        subst hrows'
        refine ⟨by rw [List.length_set]; exact hrl, ?_⟩
        intro n hn
        rw [List.getD_eq_getElem?_getD, List.getElem?_set]
        by_cases hns : c.scno = n
        · subst hns
          rw [if_pos rfl, if_pos (by omega), hof]
          exact hr
        · rw [if_neg hns]
          have : callsOf (h ++ [c]) c.pers n = callsOf h c.pers n := by
            unfold callsOf
            rw [List.filter_append]
            simp [hns]
          rw [this, ← List.getD_eq_getElem?_getD]
          exact hrs n hn
    · rw [if_neg hp]
      have e1 : callsOfPers nsys (h ++ [c]) p = callsOfPers nsys h p := by
        unfold callsOfPers
        rw [List.filter_append]
        simp [Ne.symm hp]
      have e2 : ∀ n, callsOf (h ++ [c]) p n = callsOf h p n := by
        intro n
        unfold callsOf
        rw [List.filter_append]
        simp [Ne.symm hp]
      rw [e1]
      refine ⟨(hi p).1, ?_⟩
      intro rows' hrows'
      refine ⟨((hi p).2 rows' hrows').1, ?_⟩
      intro n hn
      rw [e2]
      exact ((hi p).2 rows' hrows').2 n hn
  · rw [if_neg hc]
    refine ⟨t, rfl, ?_⟩
    intro p
    have e1 : callsOfPers nsys (h ++ [c]) p = callsOfPers nsys h p := by
      unfold callsOfPers
      rw [List.filter_append]
      have : ¬ (c.pers = p ∧ c.scno < nsys p) := by rintro ⟨rfl, h⟩; exact hc h
      simp only [List.append_right_eq_self, List.filter_eq_nil_iff, List.mem_singleton]
      intro d hd
      subst hd
      simpa using this
    rw [e1]
    refine ⟨(hi p).1, ?_⟩
    intro rows hrows
    refine ⟨((hi p).2 rows hrows).1, ?_⟩
    intro n hn
    have e2 : callsOf (h ++ [c]) p n = callsOf h p n := by
      unfold callsOf
      rw [List.filter_append]
      have : ¬ (c.pers = p ∧ c.scno = n) := by
        rintro ⟨rfl, rfl⟩; exact hc hn
      simp only [List.append_right_eq_self, List.filter_eq_nil_iff, List.mem_singleton]
      intro d hd
      subst hd
      simpa using this
    rw [e2]
    exact ((hi p).2 rows hrows).2 n hn

/-- C42: after any history of calls, the row of each system call of each personality has the number of its calls and
of its errors, and the total, least and greatest of their times; there is a table for a personality iff one of its system
calls was called -/
theorem table_is_history (o : Ts) (nsys : Nat → Nat) (h : List Call) (ho : Clock o)
    (hc : ∀ c ∈ h, Clock c.stop ∧ Clock c.start) (hsum : (h.map (share o)).sum < 2 ^ 62 * 1000000000)
    (hlen : h.length < 2 ^ 64) :
    ∃ t, countAll o nsys (fun _ => none) h = some t ∧
      ∀ p, (t p = none ↔ callsOfPers nsys h p = []) ∧
        ∀ rows, t p = some rows → rows.length = nsys p ∧ ∀ n, n < nsys p → RowStat o (callsOf h p n) (rows.getD n row0) := by
  have gen : ∀ (rest pre : List Call) (t : Tabs), Inv o nsys pre t → pre ++ rest = h →
      ∃ t', countAll o nsys t rest = some t' ∧ Inv o nsys h t' := by
    intro rest
    induction rest with
    | nil =>
      intro pre t hi he
      rw [List.append_nil] at he
      subst he
      exact ⟨t, rfl, hi⟩
    | cons c rest ih =>
      intro pre t hi he
      have he' : (pre ++ [c]) ++ rest = h := by rw [← he]; simp
      have hmem : c ∈ h := by rw [← he]; simp
      have hs : ((pre ++ [c]).map (share o)).sum < 2 ^ 62 * 1000000000 := by
        have := sum_nonneg o rest
        rw [← he', List.map_append, List.sum_append] at hsum
        omega
      have hl : pre.length + 1 < 2 ^ 64 := by
        rw [← he] at hlen
        simp at hlen
        omega
      obtain ⟨t', e, hi'⟩ := count_step o nsys pre c t ho (hc c hmem).1 (hc c hmem).2 hi hs hl
      obtain ⟨t'', e', hi''⟩ := ih (pre ++ [c]) t' hi' he'
      refine ⟨t'', ?_, hi''⟩
      unfold countAll
      rw [e]
      exact e'
  refine gen h [] (fun _ => none) ?_ rfl
  intro p
  exact ⟨⟨fun _ => rfl, fun _ => rfl⟩, by simp⟩

/-! ### Totals -/

/-- the calls of the first `n` system calls -/
def callsBelow (h : List Call) (p n : Nat) : List Call := h.filter fun c => decide (c.pers = p) && decide (c.scno < n)

theorem below_succ (h : List Call) (p n : Nat) :
    (callsBelow h p n ++ callsOf h p n).Perm (callsBelow h p (n + 1)) := by
  induction h with
  | nil => exact List.Perm.refl _
  | cons c h ih =>
    unfold callsBelow callsOf at *
    by_cases hp : c.pers = p
    · rcases Nat.lt_trichotomy c.scno n with hlt | heq | hgt
      · rw [List.filter_cons_of_pos (by simp [hp, hlt]), List.filter_cons_of_neg (by simp; omega),
          List.filter_cons_of_pos (by simp [hp]; omega)]
        exact ih.cons c
      · rw [List.filter_cons_of_neg (by simp; omega), List.filter_cons_of_pos (by simp [hp, heq]),
          List.filter_cons_of_pos (by simp [hp]; omega)]
        exact (List.perm_middle).trans (ih.cons c)
      · rw [List.filter_cons_of_neg (by simp; omega), List.filter_cons_of_neg (by simp; omega),
          List.filter_cons_of_neg (by simp; omega)]
        exact ih
    · rw [List.filter_cons_of_neg (by simp [hp]), List.filter_cons_of_neg (by simp [hp]),
        List.filter_cons_of_neg (by simp [hp])]
      exact ih

def TotStat (o : Ts) (hs : List Call) (s : Totals) : Prop := Stat o hs s.time s.tmin s.tmax s.calls s.errors

theorem sum_loop (o : Ts) (h : List Call) (p N : Nat) (hsum : (h.map (share o)).sum < 2 ^ 62 * 1000000000)
    (hlen : h.length < 2 ^ 64) : ∀ (rows : List Row) (n : Nat) (s : Totals), n + rows.length = N →
    TotStat o (callsBelow h p n) s →
    (∀ k, k < rows.length → RowStat o (callsOf h p (n + k)) (rows.getD k row0)) →
    ∃ s' rows', sumLoop s rows = some (s', rows') ∧ TotStat o (callsBelow h p N) s' ∧ rows'.length = rows.length ∧
      ∀ k, k < rows.length → ∃ a, rows'.getD k row0 = { rows.getD k row0 with tavg := a } ∧
        ((rows.getD k row0).calls = 0 → a = (rows.getD k row0).tavg) ∧
        ((rows.getD k row0).calls ≠ 0 → tsDiv (rows.getD k row0).time (rows.getD k row0).calls = some a) := by
  intro rows
  induction rows with
  | nil =>
    intro n s hn hs _
    have : n = N := by simpa using hn
    subst this
    exact ⟨s, [], rfl, hs, rfl, by simp⟩
  | cons r rows ih =>
    intro n s hn hs hr
    have hr0 : RowStat o (callsOf h p n) r := by simpa using hr 0 (by simp)
    have hrs : ∀ k, k < rows.length → RowStat o (callsOf h p (n + 1 + k)) (rows.getD k row0) := by
      intro k hk
      have := hr (k + 1) (by simpa using hk)
      rw [show n + (k + 1) = n + 1 + k by omega] at this
      simpa using this
    have hn' : n + 1 + rows.length = N := by simp at hn; omega
    have lift : ∀ (rows' : List Row) (a : Ts), (r.calls = 0 → a = r.tavg) → (r.calls ≠ 0 → tsDiv r.time r.calls = some a) →
        rows'.length = rows.length →
        (∀ k, k < rows.length → ∃ a, rows'.getD k row0 = { rows.getD k row0 with tavg := a } ∧
          ((rows.getD k row0).calls = 0 → a = (rows.getD k row0).tavg) ∧
          ((rows.getD k row0).calls ≠ 0 → tsDiv (rows.getD k row0).time (rows.getD k row0).calls = some a)) →
        ({ r with tavg := a } :: rows').length = (r :: rows).length ∧
        ∀ k, k < (r :: rows).length → ∃ b, ({ r with tavg := a } :: rows').getD k row0 = { (r :: rows).getD k row0 with tavg := b } ∧
          (((r :: rows).getD k row0).calls = 0 → b = ((r :: rows).getD k row0).tavg) ∧
          (((r :: rows).getD k row0).calls ≠ 0 →
            tsDiv ((r :: rows).getD k row0).time ((r :: rows).getD k row0).calls = some b) := by
      intro rows' a ha0 ha1 hl hk
      refine ⟨by simp [hl], ?_⟩
      intro k hkl
      cases k with
      | zero => exact ⟨a, rfl, ha0, ha1⟩
      | succ k =>
        have := hk k (by simpa using hkl)
        simpa using this
    unfold sumLoop
    by_cases h0 : r.calls = 0
    · rw [if_pos h0]
      have hof : callsOf h p n = [] := List.length_eq_zero_iff.mp (by rw [← hr0.calls, h0])
      have hs' : TotStat o (callsBelow h p (n + 1)) s := by
        have hp := below_succ h p n
        rw [hof, List.append_nil] at hp
        exact stat_perm o _ _ _ _ _ _ _ hp hs
      obtain ⟨s', rows', e, h1, h2, h3⟩ := ih (n + 1) s hn' hs' hrs
      rw [e]
      have := lift rows' r.tavg (fun _ => rfl) (fun h => absurd h0 h) h2 h3
      exact ⟨s', r :: rows', rfl, h1, this.1, this.2⟩
    · rw [if_neg h0]
      have hperm := below_succ h p n
      have hsum' : ((callsBelow h p n ++ callsOf h p n).map (share o)).sum < 2 ^ 62 * 1000000000 := by
        rw [perm_sum o _ _ hperm]
        exact Int.lt_of_le_of_lt (sum_filter o _ _) hsum
      have hlen' : (callsBelow h p n).length + (callsOf h p n).length < 2 ^ 64 := by
        have h1 := hperm.length_eq
        rw [List.length_append] at h1
        have h2 := List.length_filter_le (fun c : Call => decide (c.pers = p) && decide (c.scno < n + 1)) h
        rw [h1]
        unfold callsBelow
        omega
      obtain ⟨t, ht, hst⟩ := stat_merge o _ _ _ _ _ _ _ _ _ _ _ _ hs hr0 hsum' hlen'
      obtain ⟨a, ha⟩ : ∃ a, tsDiv r.time r.calls = some a := by
        unfold tsDiv
        rw [if_neg h0]
        exact ⟨_, rfl⟩
      rw [ht, ha]
      dsimp only
      obtain ⟨s', rows', e, h1, h2, h3⟩ := ih (n + 1)
        ⟨t, tsMin s.tmin r.tmin, tsMax s.tmax r.tmax, (s.calls + r.calls) % 2 ^ 64, (s.errors + r.errors) % 2 ^ 64⟩ hn'
        (stat_perm o _ _ _ _ _ _ _ hperm hst) hrs
      rw [e]
      have := lift rows' a (fun h => absurd h h0) (fun _ => ha) h2 h3
      exact ⟨s', { r with tavg := a } :: rows', rfl, h1, this.1, this.2⟩

/-- C42: the totals of a table are those of all the calls in it, and the average of a row is its total time divided by its
number of calls, rounded to the nearest nanosecond (for fewer than 2^33 calls) -/
theorem totals_are_history (o : Ts) (nsys : Nat → Nat) (h : List Call) (ho : Clock o)
    (hc : ∀ c ∈ h, Clock c.stop ∧ Clock c.start) (hsum : (h.map (share o)).sum < 2 ^ 62 * 1000000000)
    (hlen : h.length < 2 ^ 33) (t : Tabs) (ht : countAll o nsys (fun _ => none) h = some t) (p : Nat) (rows : List Row)
    (hrows : t p = some rows) :
    ∃ s rows', sumLoop totals0 rows = some (s, rows') ∧ TotStat o (callsOfPers nsys h p) s ∧
      rows'.length = rows.length ∧ ∀ n, n < nsys p →
        RowStat o (callsOf h p n) (rows'.getD n row0) ∧
        (callsOf h p n ≠ [] → Norm (rows'.getD n row0).tavg ∧
          ns (rows'.getD n row0).tavg =
            (((callsOf h p n).map (share o)).sum + (callsOf h p n).length / 2) / (callsOf h p n).length) := by
  obtain ⟨t', ht', hinv⟩ := table_is_history o nsys h ho hc hsum (by omega)
  rw [ht] at ht'
  injection ht' with ht'
  subst ht'
  obtain ⟨hl, hr⟩ := (hinv p).2 rows hrows
  have hb : callsBelow h p 0 = [] := by
    unfold callsBelow
    rw [List.filter_eq_nil_iff]
    simp
  obtain ⟨s, rows', e, h1, h2, h3⟩ := sum_loop o h p (nsys p) hsum (by omega) rows 0 totals0 (by omega)
    (by rw [hb]; exact stat_nil o) (by
      intro k hk
      rw [Nat.zero_add]
      exact hr k (by omega))
  refine ⟨s, rows', e, h1, h2, ?_⟩
  intro n hn
  obtain ⟨a, e1, e2, e3⟩ := h3 n (by omega)
  have hrn := hr n hn
  rw [e1]
  refine ⟨hrn, ?_⟩
  intro hne
  have hpos : 0 < (callsOf h p n).length := by
    rcases Nat.eq_zero_or_pos (callsOf h p n).length with h0 | h0
    · exact absurd (List.length_eq_zero_iff.mp h0) hne
    · exact h0
  have hcalls := hrn.calls
  have hle := List.length_filter_le (fun c : Call => decide (c.pers = p) && decide (c.scno = n)) h
  have hlt : (callsOf h p n).length < 2 ^ 33 := by unfold callsOf; omega
  have hts := hrn.time
  have htn := hrn.ntime
  have hs0 := sum_nonneg o (callsOf h p n)
  have hs1 := sum_filter o (fun c : Call => decide (c.pers = p) && decide (c.scno = n)) h
  have hsec : 0 ≤ (rows.getD n row0).time.sec ∧ (rows.getD n row0).time.sec < 2 ^ 62 := by
    unfold ns at hts
    unfold Norm at htn
    unfold callsOf at hts hs0
    omega
  obtain ⟨b, hb1, hb2, hb3⟩ := tsDiv_spec_partial (rows.getD n row0).time (rows.getD n row0).calls htn hsec.1
    (by unfold Fits; omega) (by omega) (by
      have hm := Nat.mod_lt (rows.getD n row0).time.sec.toNat (show (rows.getD n row0).calls > 0 by omega)
      omega)
  have := e3 (by omega)
  rw [hb1] at this
  injection this with this
  subst this
  refine ⟨hb2, ?_⟩
  show ns b = _
  rw [hb3, hts, hcalls]

/-- three calls of two system calls of one personality, one of another, with an overhead of 1000 ns -/
def exCalls : List Call :=
  [⟨0, 1, false, ⟨5, 4000⟩, ⟨5, 0⟩⟩, ⟨0, 1, true, ⟨6, 500⟩, ⟨6, 0⟩⟩, ⟨1, 0, false, ⟨7, 0⟩, ⟨6, 999990000⟩⟩, ⟨0, 0, false, ⟨9, 0⟩, ⟨8, 0⟩⟩]

example : (countAll ⟨0, 1000⟩ (fun _ => 2) (fun _ => none) exCalls).bind (fun t => t 0) =
    some [⟨⟨0, 999999000⟩, ⟨0, 999999000⟩, ⟨0, 999999000⟩, ⟨0, 0⟩, 1, 0⟩, ⟨⟨0, 3000⟩, ⟨0, 0⟩, ⟨0, 3000⟩, ⟨0, 0⟩, 2, 1⟩] := by
  decide +kernel

example : (∀ c ∈ exCalls, Clock c.stop ∧ Clock c.start) ∧ (exCalls.map (share ⟨0, 1000⟩)).sum < 2 ^ 62 * 1000000000 := by
  unfold Clock Norm
  decide +kernel

end Strace.Count
