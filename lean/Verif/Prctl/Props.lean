import Verif.Prctl.Spec
set_option linter.unusedSimpArgs false
namespace Strace.Prctl
open Spec

theorem toInt_mod {a b : Nat} (h : toInt a = toInt b) : a % 2 ^ 32 = b % 2 ^ 32 := by
  unfold toInt at h
  split at h <;> split at h <;> omega

theorem toInt_small {a : Nat} (h : a ≤ 128) : toInt a = a := by
  unfold toInt
  rw [if_pos (by omega)]
  omega

theorem run_early (c : Call) : (run c).early = (sysPrctl .entering c (optOf (c.arg 0))).1 := by
  simp only [run]
  split <;> rfl

theorem run_late (c : Call) : (run c).late =
    if (sysPrctl .entering c (optOf (c.arg 0))).2 = true then [] else (sysPrctl .exiting c (optOf (c.arg 0))).1 := by
  simp only [run]
  split <;> rfl

/-! ## When the arguments are shown -/

theorem entering_before (c : Call) (o : Opt) (after' : Mem) (failed' : Bool) :
    sysPrctl .entering { c with after := after', failed := failed' } o = sysPrctl .entering c o := by
  cases o <;> simp [sysPrctl, restFrom, printstr, printFprog, memAt]

/-- **What is shown when a call begins depends only on its arguments and on memory as it is then**: not on whether it fails,
nor on what it leaves in memory. -/
theorem early_before (c : Call) (after' : Mem) (failed' : Bool) :
    (run { c with after := after', failed := failed' }).early = (run c).early := by
  rw [run_early, run_early, entering_before]

theorem exiting_after (c : Call) (o : Opt) (before' : Mem) (h : (sysPrctl .entering c o).2 = false) :
    (sysPrctl .exiting { c with before := before' } o).1 = (sysPrctl .exiting c o).1 := by
  cases o <;> simp_all [sysPrctl, restFrom, printstr, printFprog, memAt, printnum]

/-- **What is shown when a call ends does not depend on what was in memory before it.** -/
theorem late_after (c : Call) (before' : Mem) : (run { c with before := before' }).late = (run c).late := by
  have e : (sysPrctl .entering { c with before := before' } (optOf (c.arg 0))).2
      = (sysPrctl .entering c (optOf (c.arg 0))).2 := by
    cases optOf (c.arg 0) <;> simp [sysPrctl] <;> (repeat' split) <;> rfl
  rw [run_late, run_late]
  simp only at *
  rw [e]
  cases h : (sysPrctl .entering c (optOf (c.arg 0))).2 with
  | true => rfl
  | false => simp [exiting_after c _ before' h]

/-- The argument that an item is of. -/
def Item.index : Item → Nat
  | .val i _ => i
  | .int i _ => i
  | .addr i _ => i
  | .mem i _ => i
  | .str i _ => i
  | .fprog i _ _ => i

theorem index_val (i v : Nat) : (Item.val i v).index = i := rfl
theorem index_int (i : Nat) (v : Int) : (Item.int i v).index = i := rfl
theorem index_addr (i v : Nat) : (Item.addr i v).index = i := rfl

theorem umoven_le {m : Mem} : ∀ {n a : Nat}, Readable m a n → ∃ l, umoven m a n = some l ∧ number l = le m a n
  | 0, _, _ => ⟨[], rfl, rfl⟩
  | n + 1, a, h => by
    obtain ⟨l, hl, hn⟩ := umoven_le (m := m) (n := n) (a := a + 1) (fun i hi => by
      rw [show a + 1 + i = a + (i + 1) by omega]; exact h (i + 1) (by omega))
    have h0 := h 0 (by omega)
    rw [Nat.add_zero] at h0
    obtain ⟨b, hb⟩ := Option.isSome_iff_exists.mp h0
    refine ⟨b :: l, by simp [umoven, hb, hl], ?_⟩
    simp only [number, hn]
    exact (le_low m n a b hb).symm
where
  le_low (m : Mem) : ∀ (n a b : Nat), m a = some b → le m a (n + 1) = b + 256 * le m (a + 1) n
    | 0, a, b, hb => by simp [le, hb]
    | n + 1, a, b, hb => by
      have e : le m a (n + 2) = le m a (n + 1) + 256 ^ (n + 1) * (m (a + (n + 1))).getD 0 := rfl
      rw [e, le_low m n a b hb]
      have e2 : le m (a + 1) (n + 1) = le m (a + 1) n + 256 ^ n * (m (a + 1 + n)).getD 0 := rfl
      rw [e2, Nat.mul_add, Nat.pow_succ, show a + (n + 1) = a + 1 + n by omega, Nat.mul_comm (256 ^ n) 256, Nat.mul_assoc]
      omega

theorem umoven_none {m : Mem} : ∀ {n a : Nat}, ¬ Readable m a n → umoven m a n = none
  | 0, _, h => absurd (fun _ hi => absurd hi (by omega)) h
  | n + 1, a, h => by
    cases hu : umoven m a (n + 1) with
    | none => rfl
    | some l =>
      refine absurd (fun i hi => ?_) h
      simp only [umoven] at hu
      split at hu
      · rename_i b t hb ht
        cases i with
        | zero => simp [hb]
        | succ i =>
          have := Classical.byContradiction fun hn => by
            have := umoven_none (m := m) (n := n) (a := a + 1) hn
            rw [ht] at this; cases this
          rw [show a + (i + 1) = a + 1 + i by omega]
          exact this i (by omega)
      · cases hu

open Classical in
/-- **Memory that the call fills is shown when it has ended**: nothing is shown of it when the call begins, and when it ends
the number that is there then, in its full size; or its address, if the call has failed or the memory is not readable. -/
theorem filled_late (c : Call) (i n : Nat) (h : fills (optOf (c.arg 0)) c.arg = some (i, n)) :
    (∀ it ∈ (run c).early, it.index ≠ i)
    ∧ (run c).late = [if c.failed = true ∨ c.arg i = 0 ∨ ¬ Readable c.after (c.arg i) n then .addr i (c.arg i)
        else .mem i (le c.after (c.arg i) n)] := by
  have key : printnum .exiting c i n
      = if c.failed = true ∨ c.arg i = 0 ∨ ¬ Readable c.after (c.arg i) n then .addr i (c.arg i)
        else .mem i (le c.after (c.arg i) n) := by
    by_cases h1 : c.failed = true
    · simp [printnum, h1]
    by_cases h2 : c.arg i = 0
    · simp [printnum, h2]
    by_cases h3 : Readable c.after (c.arg i) n
    · obtain ⟨l, hl, hn⟩ := umoven_le h3
      simp [printnum, h1, h2, h3, memAt, hl, hn]
    · simp [printnum, h1, h2, h3, memAt, umoven_none h3]
  rw [← key, run_early, run_late]
  generalize optOf (c.arg 0) = o at h
  cases o <;> simp only [fills] at h <;> try (cases h; done)
  case schedCore =>
    by_cases h0 : c.arg 1 % 2 ^ 32 = 0
    · simp only [h0, if_true, Option.some.injEq, Prod.mk.injEq] at h
      obtain ⟨rfl, rfl⟩ := h
      cases hf : c.failed <;> simp [sysPrctl, h0, Item.index, printnum, hf]
    · simp [h0] at h
  all_goals
    simp only [Option.some.injEq, Prod.mk.injEq] at h
    obtain ⟨rfl, rfl⟩ := h
    simp [sysPrctl]

theorem umovestr_at {m : Mem} : ∀ {n a : Nat} {s : List Nat}, umovestr m a n = some s → StringAt m a n s
  | 0, a, s, h => by
    simp only [umovestr, Option.some.injEq] at h
    subst h
    exact ⟨by simp, by simp, by simp, by simp⟩
  | n + 1, a, s, h => by
    simp only [umovestr] at h
    split at h
    · cases h
    · rename_i b hb
      by_cases h0 : b = 0
      · simp only [h0, if_true, Option.some.injEq] at h
        subst h
        exact ⟨by simp, by simp, by simp, by simp [hb, h0]⟩
      · simp only [h0, if_false, Option.map_eq_some_iff] at h
        obtain ⟨t, ht, rfl⟩ := h
        obtain ⟨h1, h2, h3, h4⟩ := umovestr_at ht
        refine ⟨by simp; omega, ?_, ?_, ?_⟩
        · intro i hi
          cases i with
          | zero => simpa using hb
          | succ i =>
            rw [show a + (i + 1) = a + 1 + i by omega]
            simpa using h2 i (by simpa using hi)
        · intro x hx
          rcases List.mem_cons.mp hx with rfl | hx
          · exact h0
          · exact h3 x hx
        · intro hl
          rw [List.length_cons, show a + (t.length + 1) = a + 1 + t.length by omega]
          exact h4 (by simpa using hl)

theorem at_umovestr {m : Mem} : ∀ {n a : Nat} {s : List Nat}, StringAt m a n s → umovestr m a n = some s
  | 0, a, s, h => by
    have : s = [] := List.eq_nil_of_length_eq_zero (by have := h.1; omega)
    subst this
    rfl
  | n + 1, a, [], h => by
    have := h.2.2.2 (by simp)
    simp only [List.length_nil, Nat.add_zero] at this
    simp [umovestr, this]
  | n + 1, a, b :: s, h => by
    obtain ⟨h1, h2, h3, h4⟩ := h
    have hb := h2 0 (by simp)
    simp only [Nat.add_zero, List.getD_cons_zero] at hb
    have h0 := h3 b (List.mem_cons_self ..)
    have ht : umovestr m (a + 1) n = some s := at_umovestr ⟨by simp at h1; omega, fun i hi => by
        have := h2 (i + 1) (by simpa using hi)
        rw [show a + (i + 1) = a + 1 + i by omega] at this
        simpa using this, fun x hx => h3 x (List.mem_cons_of_mem _ hx), fun hl => by
        have := h4 (by simpa using hl)
        rw [List.length_cons, show a + (s.length + 1) = a + 1 + s.length by omega] at this
        exact this⟩
    simp [umovestr, hb, h0, ht]

/-- **The name that a thread is given is shown when the call begins**, its first 15 bytes, from memory as it is then. -/
theorem name_set (c : Call) (s : List Nat) (h : optOf (c.arg 0) = .setName) (ha : c.arg 1 ≠ 0)
    (hs : StringAt c.before (c.arg 1) 15 s) : run c = ⟨[.str 1 s], []⟩ := by
  simp [run, h, sysPrctl, printstr, ha, memAt, at_umovestr hs]

/-- **The name that has been got is shown when the call has ended**, and the address if it has failed. -/
theorem name_got (c : Call) (s : List Nat) (h : optOf (c.arg 0) = .getName) (ha : c.arg 1 ≠ 0)
    (hs : StringAt c.after (c.arg 1) 16 s) :
    run c = ⟨[], [if c.failed = true then .addr 1 (c.arg 1) else .str 1 s]⟩ := by
  cases hf : c.failed <;> simp [run, h, sysPrctl, printstr, ha, memAt, at_umovestr hs, hf]

theorem umoven_take {m : Mem} : ∀ {n k a : Nat} {l : List Nat}, umoven m a (k + n) = some l →
    umoven m a k = some (l.take k) ∧ umoven m (a + k) n = some (l.drop k)
  | n, 0, a, l, h => by
    rw [Nat.zero_add] at h
    exact ⟨rfl, by simpa using h⟩
  | n, k + 1, a, l, h => by
    rw [show k + 1 + n = (k + n) + 1 by omega] at h
    simp only [umoven] at h
    split at h
    · rename_i b t hb ht
      cases h
      obtain ⟨h1, h2⟩ := umoven_take ht
      refine ⟨by simp [umoven, hb, h1], ?_⟩
      rw [show a + (k + 1) = a + 1 + k by omega]
      simpa using h2
    · cases h

/-- **The program of a filter is shown when the call begins**: its length and its address as the structure has them then. -/
theorem filter_set (c : Call) (h : optOf (c.arg 0) = .setSeccomp) (h2 : c.arg 1 = 2) (ha : c.arg 2 ≠ 0)
    (hr : Readable c.before (c.arg 2) 16) :
    run c = ⟨[.val 1 2, .fprog 2 (le c.before (c.arg 2) 2) (le c.before (c.arg 2 + 8) 8)], []⟩ := by
  obtain ⟨l, hl, -⟩ := umoven_le hr
  obtain ⟨h3, -⟩ := umoven_take (n := 14) (k := 2) hl
  obtain ⟨-, h4⟩ := umoven_take (n := 8) (k := 8) hl
  obtain ⟨l1, e1, n1⟩ := umoven_le (m := c.before) (a := c.arg 2) (n := 2) fun i hi => hr i (by omega)
  obtain ⟨l2, e2, n2⟩ := umoven_le (m := c.before) (a := c.arg 2 + 8) (n := 8) fun i hi => by
    rw [Nat.add_assoc]; exact hr (8 + i) (by omega)
  rw [h3] at e1; rw [h4] at e2
  cases e1; cases e2
  simp [run, h, sysPrctl, h2, printFprog, ha, memAt, hl, n1, n2]

/-! ## Which arguments are shown -/

/-- **The line tells what the kernel was given**: if two calls with the same option have the same line when they begin, the
kernel finds the same in all arguments that it looks at.  This is so of all options but those of `hidden`. -/
theorem determines_partial (c d : Call) (ho : optOf (c.arg 0) = optOf (d.arg 0)) (hh : optOf (c.arg 0) ∉ hidden)
    (he : (run c).early = (run d).early) :
    ∀ p ∈ looksAt (optOf (c.arg 0)) c.arg, c.arg p.1 % 2 ^ p.2 = d.arg p.1 % 2 ^ p.2 := by
  rw [run_early, run_early, ← ho] at he
  generalize optOf (c.arg 0) = o at *
  cases o
  case setPdeathsig =>
    simp only [sysPrctl, looksAt] at he ⊢
    by_cases h1 : c.arg 1 > 128 <;> by_cases h2 : d.arg 1 > 128 <;> simp [h1, h2] at he ⊢
    · rw [he]
    · have := toInt_small (a := c.arg 1) (by omega)
      have := toInt_small (a := d.arg 1) (by omega)
      have : c.arg 1 = d.arg 1 := by omega
      rw [this]
  case setSeccomp =>
    have : c.arg 1 = d.arg 1 := by
      have hd1 : ∀ x : Call, ∃ l, (sysPrctl .entering x .setSeccomp).1 = .val 1 (x.arg 1) :: l := by
        intro x
        simp only [sysPrctl]
        split
        · exact ⟨_, rfl⟩
        · split <;> exact ⟨_, rfl⟩
      obtain ⟨l1, e1⟩ := hd1 c
      obtain ⟨l2, e2⟩ := hd1 d
      rw [e1, e2] at he
      simpa using congrArg List.head? he
    simp [looksAt, this]
  case capAmbient =>
    have : c.arg 1 = d.arg 1 ∧ c.arg 2 = d.arg 2 ∧ c.arg 3 = d.arg 3 ∧ c.arg 4 = d.arg 4 := by
      simp only [sysPrctl, restFrom] at he
      split at he <;> split at he <;> simpa [List.range, List.range.loop] using he
    obtain ⟨h1, h2, h3, h4⟩ := this
    simp [looksAt, all4, h1, h2, h3, h4]
  case schedCore =>
    simp only [sysPrctl, if_true] at he
    by_cases h1 : c.arg 1 % 2 ^ 32 = 0 <;> by_cases h2 : d.arg 1 % 2 ^ 32 = 0 <;>
      simp only [h1, h2, if_true, if_false, List.cons.injEq, Item.val.injEq, Item.int.injEq, Item.addr.injEq,
        true_and, and_true] at he
    · obtain ⟨e2, e3⟩ := he
      have e2 := toInt_mod e2
      simp [looksAt, h1, h2] at e2 e3 ⊢
      exact ⟨e2, e3⟩
    · simp at he
    · simp at he
    · obtain ⟨e1, e2, e3, e4⟩ := he
      have e2 := toInt_mod e2
      simp [looksAt, h1] at e1 e2 e3 ⊢
      exact ⟨e1, e2, e3, by rw [e4]⟩
  case setVma =>
    simp only [sysPrctl, restFrom] at he
    by_cases h1 : c.arg 1 = 0 <;> by_cases h2 : d.arg 1 = 0 <;> simp [h1, h2, List.range, List.range.loop] at he
    · simp [looksAt, h1, h2, he.1, he.2.1]
    · obtain ⟨e1, e2, e3, e4⟩ := he
      simp [looksAt, h2, all4, e1, e2, e3, e4]
  all_goals
    simp only [sysPrctl, looksAt, all4, restFrom, hidden] at * 
    simp [List.range, List.range.loop] at he hh ⊢
    try simp [he]

/-- Calls with an option and the arguments given. -/
def call (o a1 a2 a3 a4 : Nat) : Call :=
  ⟨fun i => [o, a1, a2, a3, a4].getD i 0, fun _ => none, fun _ => none, true⟩

/-- The claim about an option: lines that are equal when the calls begin come from arguments that the kernel cannot tell
apart. -/
def Determined (o : Opt) : Prop :=
  ∀ c d : Call, optOf (c.arg 0) = o → optOf (d.arg 0) = o →
    (run c).early = (run d).early → ∀ p ∈ looksAt o c.arg, c.arg p.1 % 2 ^ p.2 = d.arg p.1 % 2 ^ p.2

/-- **Exactly four options hide something**: PR_GET_SPECULATION_CTRL and PR_SET_SPECULATION_CTRL show no arguments that have
to be zero, PR_SET_MDWE and PR_SET_PTRACER show only 32 bits of an argument that the kernel takes as a long one. -/
theorem determined_iff (o : Opt) : Determined o ↔ o ∉ hidden := by
  constructor
  · intro h hh
    simp only [hidden, List.mem_cons, List.not_mem_nil, or_false] at hh
    rcases hh with rfl | rfl | rfl | rfl
    · have := h (call 52 0 0 0 0) (call 52 0 1 0 0) (by decide) (by decide) (by decide) (2, 64) (by decide)
      revert this; decide
    · have := h (call 53 0 0 0 0) (call 53 0 0 1 0) (by decide) (by decide) (by decide) (3, 64) (by decide)
      revert this; decide
    · have := h (call 65 0 0 0 0) (call 65 (2 ^ 32) 0 0 0) (by decide) (by decide) (by decide) (1, 64) (by decide)
      revert this; decide
    · have := h (call 0x59616d61 0 0 0 0) (call 0x59616d61 (2 ^ 32) 0 0 0) (by decide) (by decide) (by decide) (1, 64)
        (by decide)
      revert this; decide
  · intro hh c d hc hd he
    subst hc
    exact determines_partial c d hd.symm hh he

/-- The full claim is false: the first call asks for the state of a misfeature and succeeds, the second one has another
argument for which the kernel refuses it (EINVAL), and both lines begin with
`prctl(PR_GET_SPECULATION_CTRL, PR_SPEC_STORE_BYPASS`. -/
theorem determines_counterexample :
    run (call 52 0 0 0 0) = run (call 52 0 1 0 0) ∧ run (call 52 0 0 0 0) = ⟨[.val 1 0], []⟩ := by decide

/-- And of PR_SET_MDWE: the flags 2^32, which the kernel refuses, are shown as 0. -/
theorem mdwe_counterexample : run (call 65 (2 ^ 32) 0 0 0) = run (call 65 0 0 0 0) := by decide

/-- **Arguments are shown in their order, from the first on and without a gap**, over both parts of the line; and those that
the kernel looks at are among them, except for the two options that hide some. -/
theorem in_order (c : Call) : ∃ k, k ≤ 4
    ∧ ((run c).early ++ (run c).late).map Item.index = (List.range k).map (· + 1)
    ∧ (optOf (c.arg 0) ≠ .getSpeculationCtrl → optOf (c.arg 0) ≠ .setSpeculationCtrl →
        ∀ p ∈ looksAt (optOf (c.arg 0)) c.arg, p.1 ≤ k) := by
  have hn : ∀ ph i n, (printnum ph c i n).index = i := by
    intro ph i n; unfold printnum; split
    · rfl
    · split <;> rfl
  have hs : ∀ ph i n, (printstr ph c i n).index = i := by
    intro ph i n; unfold printstr; split
    · rfl
    · split <;> rfl
  have hf : ∀ ph i, (printFprog ph c i).index = i := by
    intro ph i; unfold printFprog; split
    · rfl
    · split <;> rfl
  rw [run_early, run_late]
  generalize optOf (c.arg 0) = o
  cases o
  case setSeccomp =>
    by_cases h1 : c.arg 1 = 1
    · exact ⟨1, by omega, by simp [sysPrctl, h1, index_val, index_int, index_addr, List.range, List.range.loop], by simp [looksAt]⟩
    by_cases h2 : c.arg 1 = 2
    · exact ⟨2, by omega, by simp [sysPrctl, h2, index_val, index_int, index_addr, List.range, List.range.loop, hf], by simp [looksAt]⟩
    exact ⟨4, by omega, by simp [sysPrctl, h1, h2, restFrom, index_val, index_int, index_addr, List.range, List.range.loop], by simp [looksAt]⟩
  case setPdeathsig =>
    refine ⟨1, by omega, ?_, by simp [looksAt]⟩
    by_cases h1 : c.arg 1 > 128 <;> simp [sysPrctl, h1, index_val, index_int, index_addr, List.range, List.range.loop]
  case capAmbient =>
    refine ⟨4, by omega, ?_, by simp [looksAt, all4]⟩
    by_cases h1 : c.arg 1 = 2 ∨ c.arg 1 = 3 ∨ c.arg 1 = 1 <;>
      simp [sysPrctl, h1, restFrom, index_val, index_int, index_addr, List.range, List.range.loop]
  case schedCore =>
    refine ⟨4, by omega, ?_, ?_⟩
    · by_cases h1 : c.arg 1 % 4294967296 = 0 <;> cases h2 : c.failed <;>
        simp [sysPrctl, h1, h2, index_val, index_int, index_addr, List.range, List.range.loop, hn]
    · intro _ _ p hp
      simp only [looksAt] at hp
      split at hp <;> simp at hp <;> rcases hp with rfl | rfl | rfl | hp <;> (try subst hp) <;> simp
  case setVma =>
    refine ⟨4, by omega, ?_, ?_⟩
    · by_cases h1 : c.arg 1 = 0 <;> simp [sysPrctl, h1, restFrom, index_val, index_int, index_addr, List.range, List.range.loop, hs]
    · intro _ _ p hp
      simp only [looksAt, all4] at hp
      split at hp <;> simp at hp <;> rcases hp with rfl | rfl | rfl | hp <;> (try subst hp) <;> simp
  case getName =>
    refine ⟨1, by omega, ?_, by simp [looksAt]⟩
    cases h2 : c.failed <;> simp [sysPrctl, h2, index_val, index_int, index_addr, List.range, List.range.loop, hs]
  all_goals first
    | (refine ⟨0, by omega, ?_, ?_⟩ <;>
        simp [sysPrctl, looksAt, all4, restFrom, index_val, index_int, index_addr, List.range, List.range.loop, hn, hs] <;> done)
    | (refine ⟨1, by omega, ?_, ?_⟩ <;>
        simp [sysPrctl, looksAt, all4, restFrom, index_val, index_int, index_addr, List.range, List.range.loop, hn, hs] <;> done)
    | (refine ⟨2, by omega, ?_, ?_⟩ <;>
        simp [sysPrctl, looksAt, all4, restFrom, index_val, index_int, index_addr, List.range, List.range.loop, hn, hs] <;> done)
    | (refine ⟨4, by omega, ?_, ?_⟩ <;>
        simp [sysPrctl, looksAt, all4, restFrom, index_val, index_int, index_addr, List.range, List.range.loop, hn, hs] <;> done)

/-- Numbers: each option of the table is found by its own number, and only by it (of the low 32 bits). -/
theorem number_of (n : Nat) (o : Opt) (ho : o ≠ .other) : optOf n = o ↔ (n % 2 ^ 32, o) ∈ numbers := by
  have fact : ∀ e ∈ numbers, (numbers.find? fun x => x.1 == e.1) = some e := by decide
  have noOther : ∀ e ∈ numbers, e.2 ≠ .other := by decide
  constructor
  · intro h
    unfold optOf at h
    cases hf : numbers.find? fun e => e.1 == n % 2 ^ 32 with
    | none => rw [hf] at h; simp at h; exact absurd h.symm ho
    | some e =>
      rw [hf] at h
      simp at h
      have hm := List.mem_of_find?_eq_some hf
      have he := List.find?_some hf
      simp only [beq_iff_eq] at he
      have : e = (n % 2 ^ 32, o) := Prod.ext he h
      rw [← this]; exact hm
  · intro h
    have := fact _ h
    simp only at this
    unfold optOf
    rw [this]; rfl

/-! ## arch_prctl -/

open Classical in
/-- **What ARCH_GET_FS and the others have written is shown when the call has ended**, except for the three newest. -/
theorem arch_filled_partial (c : Call) (h : c.arg 0 % 2 ^ 32 ∈ archFills) (hn : c.arg 0 % 2 ^ 32 ∉ archNew) :
    runArch c = ⟨[], [if c.failed = true ∨ c.arg 1 = 0 ∨ ¬ Readable c.after (c.arg 1) 8 then .addr 1 (c.arg 1)
        else .mem 1 (le c.after (c.arg 1) 8)]⟩ := by
  have key : printnum .exiting c 1 8
      = if c.failed = true ∨ c.arg 1 = 0 ∨ ¬ Readable c.after (c.arg 1) 8 then .addr 1 (c.arg 1)
        else .mem 1 (le c.after (c.arg 1) 8) := by
    by_cases h1 : c.failed = true
    · simp [printnum, h1]
    by_cases h2 : c.arg 1 = 0
    · simp [printnum, h2]
    by_cases h3 : Readable c.after (c.arg 1) 8
    · obtain ⟨l, hl, hn⟩ := umoven_le h3
      simp [printnum, h1, h2, h3, memAt, hl, hn]
    · simp [printnum, h1, h2, h3, memAt, umoven_none h3]
  rw [← key]
  simp only [archFills, archNew, List.mem_cons, List.not_mem_nil, or_false, not_or] at h hn
  simp only [runArch, sysArchPrctl, archGetters, archXcompGetters, archXcompSetters, archNoArgument]
  generalize c.arg 0 % 2 ^ 32 = o at *
  rcases h with rfl | rfl | rfl | rfl | rfl | rfl | rfl | rfl <;> simp_all

/-- Any other code but ARCH_GET_CPUID is shown with its argument as a number, when the call begins. -/
theorem arch_value (c : Call) (h : c.arg 0 % 2 ^ 32 ∉ archFills ∨ c.arg 0 % 2 ^ 32 ∈ archNew)
    (hn : c.arg 0 % 2 ^ 32 ≠ 0x1011) : runArch c = ⟨[.val 1 (c.arg 1)], []⟩ := by
  simp only [archFills, archNew, List.mem_cons, List.not_mem_nil, or_false, not_or] at h
  simp only [runArch, sysArchPrctl, archGetters, archXcompGetters, archXcompSetters, archNoArgument]
  generalize c.arg 0 % 2 ^ 32 = o at *
  rcases h with ⟨h1, h2, h3, h4, h5, h6, h7, h8⟩ | rfl | rfl | rfl
  · by_cases h9 : o = 0x1023 <;> by_cases h10 : o = 0x1025 <;> simp [*]
  all_goals simp

/-- ARCH_GET_CPUID has no argument. -/
theorem arch_no_argument (c : Call) (h : c.arg 0 % 2 ^ 32 = 0x1011) : runArch c = ⟨[], []⟩ := by
  simp [runArch, sysArchPrctl, archGetters, archXcompGetters, archXcompSetters, archNoArgument, h]

/-- Memory in which all bytes are `b`. -/
def full (b : Nat) : Mem := fun _ => some b

/-- The full claim is false of ARCH_GET_UNTAG_MASK: its line does not tell the mask that was got. -/
theorem arch_filled_counterexample :
    runArch ⟨fun i => if i = 0 then 0x4001 else 4096, full 0, full 1, false⟩
      = runArch ⟨fun i => if i = 0 then 0x4001 else 4096, full 0, full 2, false⟩
    ∧ runArch ⟨fun i => if i = 0 then 0x1003 else 4096, full 0, full 1, false⟩
      ≠ runArch ⟨fun i => if i = 0 then 0x1003 else 4096, full 0, full 2, false⟩ := by decide

/-! ## Examples -/

/-- PR_GET_PDEATHSIG that has found SIGTERM. -/
example : run ⟨fun i => if i = 0 then 2 else 4096, full 1, fun a => if a = 4096 then some 15 else some 0, false⟩
    = ⟨[], [.mem 1 15]⟩ := by decide

example : fills (optOf 2) (fun _ => 0) = some (1, 4) := by decide

/-- PR_SCHED_CORE with PR_SCHED_CORE_GET of process 77, with the high bits of the command set. -/
example : run ⟨fun i => [62, 2 ^ 32, 77, 1, 4096].getD i 0, full 1, full 2, false⟩
    = ⟨[.val 1 0, .int 2 77, .val 3 1], [.mem 4 0x0202020202020202]⟩ := by decide

/-- PR_SET_NAME to a name that is longer than 15 bytes. -/
example : run ⟨fun i => if i = 0 then 15 else 4096, full 65, full 2, false⟩
    = ⟨[.str 1 (List.replicate 15 65)], []⟩ := by decide

example : StringAt (full 65) 4096 15 (List.replicate 15 65) := by
  refine ⟨by decide, ?_, by decide, by decide⟩
  decide

/-- Lines that differ: the kernel looks at the second argument of PR_MCE_KILL. -/
example : run (call 33 1 0 0 0) ≠ run (call 33 1 2 0 0) ∧ optOf 33 ∉ hidden := by decide

end Strace.Prctl
