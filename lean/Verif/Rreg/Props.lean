import Verif.Rreg.Spec
import Verif.Memc.Props

/-!
# Proofs about io_uring_register
-/
namespace Strace.Rreg

open Strace.Prctl (Mem umoven number)
open Strace.Rreg.Spec

theorem word_eq : Spec.word = Memc.Spec.word := rfl

theorem part {m : Mem} {p n : Nat} {l : List Nat} (h : umoven m p n = some l) {o w : Nat} (ho : o + w ≤ n) :
    number ((l.drop o).take w) = word m (p + o) w := by
  rw [word_eq]
  exact Memc.number_word (Memc.umoven_part h ho)

/-- The memory of a phase. -/
def memAt (c : Call) (ph : Phase) : Mem := match ph with | .entering => c.before | .exiting => c.after

theorem fetch_readable {c : Call} {ph : Phase} {p n : Nat} (hv : c.verbose = true) (hf : ph = .entering ∨ c.failed = false)
    (h : Readable (memAt c ph) p n) : ∃ l, fetch c ph p n = some l ∧ umoven (memAt c ph) p n = some l := by
  obtain ⟨l, hl, -⟩ := Prctl.umoven_le (m := memAt c ph) (n := n) (a := p) h.2
  exact ⟨l, by unfold fetch; rw [if_pos ⟨h.1, hv, hf⟩]; exact hl, hl⟩

theorem fetch_unreadable {c : Call} {ph : Phase} {p n : Nat} (h : ¬ Readable (memAt c ph) p n) : fetch c ph p n = none := by
  unfold fetch
  split
  · rename_i h'
    exact Prctl.umoven_none (fun h2 => h ⟨h'.1, h2⟩)
  · rfl

theorem umoven_bytes {m : Mem} : ∀ {n a : Nat} {l : List Nat}, umoven m a n = some l → l = (List.range n).map fun i => (m (a + i)).getD 0
  | 0, a, l, h => by cases h; rfl
  | n + 1, a, l, h => by
    simp only [umoven] at h
    split at h
    · rename_i b t hb ht
      cases h
      rw [List.range_succ_eq_map, List.map_cons, List.map_map, umoven_bytes ht]
      simp only [Nat.add_zero, hb, Option.getD_some, List.cons.injEq, true_and]
      refine List.map_congr_left fun i _ => ?_
      simp only [Function.comp]
      rw [show a + 1 + i = a + (i + 1) by omega]
    · cases h

/-- Memory holds bytes. -/
def Bytes (m : Mem) : Prop := ∀ a b, m a = some b → b < 256

theorem number_lt : ∀ {l : List Nat}, (∀ b ∈ l, b < 256) → number l < 256 ^ l.length
  | [], _ => by decide
  | b :: l, h => by
    have h1 := h b (by simp)
    have h2 := number_lt (l := l) fun x hx => h x (by simp [hx])
    rw [number, List.length_cons, Nat.pow_succ]
    omega

theorem umoven_lt {m : Mem} (hm : Bytes m) : ∀ {n a : Nat} {l : List Nat}, umoven m a n = some l → l.length = n ∧ ∀ b ∈ l, b < 256
  | 0, a, l, h => by cases h; simp
  | n + 1, a, l, h => by
    simp only [umoven] at h
    split at h
    · rename_i b t hb ht
      cases h
      have := umoven_lt hm ht
      refine ⟨by simp [this.1], ?_⟩
      intro x hx
      rcases List.mem_cons.1 hx with rfl | hx
      · exact hm _ _ hb
      · exact this.2 x hx
    · cases h

/-- A member of the model is a declaration at a place. -/
def Is (e : Member) (o : Nat) (d : Decl) : Prop :=
  e.name = d.name ∧ e.off = o ∧ e.width = d.ty.size ∧ e.count = d.count ∧ e.signed = d.ty.signed ∧ e.hidden = d.reserved

/-- Members are declarations, each after the one before it. -/
def Are : Nat → List Member → List Decl → Prop
  | _, [], [] => True
  | o, e :: es, d :: ds => Is e o d ∧ Are (o + d.count * d.ty.size) es ds
  | _, _, _ => False

theorem get_at {m : Mem} (hm : Bytes m) {p n : Nat} {l : List Nat} (h : umoven m p n = some l) {e : Member} {o : Nat} {d : Decl}
    (he : Is e o d) {i : Nat} (hi : o + i * d.ty.size + d.ty.size ≤ n) : IsAt m d.ty (p + o + i * d.ty.size) (e.get l i) := by
  obtain ⟨-, h2, h3, -, h5, -⟩ := he
  have hp := part h (o := o + i * d.ty.size) (w := d.ty.size) hi
  have hlt : number ((l.drop (o + i * d.ty.size)).take d.ty.size) < 256 ^ d.ty.size := by
    have := umoven_lt hm (Memc.umoven_part h hi)
    have h' := number_lt this.2
    rw [this.1] at h'
    exact h'
  rw [← Nat.add_assoc] at hp
  unfold IsAt Member.get
  simp only [h2, h3, h5]
  rw [hp] at hlt ⊢
  by_cases hs : d.ty.signed = true
  · simp only [hs, true_and, if_true]
    split <;> refine ⟨by omega, by omega, ?_⟩
    · right; omega
    · left; rfl
  · simp only [hs, false_and, if_false, Bool.false_eq_true]

theorem all_holds {m : Mem} (hm : Bytes m) {p n : Nat} {l : List Nat} (h : umoven m p n = some l) {e : Member} {o : Nat} {d : Decl}
    (he : Is e o d) (hn : o + d.count * d.ty.size ≤ n) : Holds m (p + o) d (e.all l) := by
  refine ⟨by simp [Member.all, he.2.2.2.1], ?_⟩
  intro i v hv
  unfold Member.all at hv
  rw [List.getElem?_map] at hv
  obtain ⟨j, hj, rfl⟩ := Option.map_eq_some_iff.1 hv
  have hlt : i < e.count := by
    have := (List.getElem?_eq_some_iff.1 hj).1
    simpa using this
  have : j = i := by
    rw [List.getElem?_range hlt] at hj
    exact (Option.some.inj hj).symm
  subst this
  rw [he.2.2.2.1] at hlt
  refine get_at hm h he ?_
  have : (j + 1) * d.ty.size ≤ d.count * d.ty.size := Nat.mul_le_mul_right _ hlt
  rw [Nat.add_mul, Nat.one_mul] at this
  omega

theorem shows_of {m : Mem} (hm : Bytes m) {p n : Nat} {l : List Nat} (h : umoven m p n = some l) :
    ∀ {es : List Member} {ds : List Decl} {o : Nat}, Are o es ds → o + bytes ds ≤ n →
      Shows m (p + o) ds (es.flatMap (Member.tok l))
  | [], [], o, _, _ => .nil
  | [], _ :: _, _, ha, _ => absurd ha (by simp [Are])
  | _ :: _, [], _, ha, _ => absurd ha (by simp [Are])
  | e :: es, d :: ds, o, ha, hn => by
    obtain ⟨he, ha⟩ := ha
    simp only [bytes, List.map_cons, List.sum_cons] at hn
    have hh := all_holds hm h he (by omega)
    have ih := shows_of hm h ha (by simp only [bytes]; omega)
    rw [← Nat.add_assoc] at ih
    have hz : e.all l = List.replicate e.count 0 ↔ ∀ v ∈ e.all l, v = 0 := by
      rw [List.eq_replicate_iff]
      simp [Member.all]
    rw [List.flatMap_cons, Member.tok, he.1]
    split
    · rename_i h'
      exact .zero hh (he.2.2.2.2.2 ▸ h'.1) (hz.1 h'.2) ih
    · rename_i h'
      exact .shown hh (fun h'' => h' ⟨he.2.2.2.2.2 ▸ h''.1, hz.2 h''.2⟩) ih

theorem struct_of {c : Call} {ph : Phase} {es : List Member} {ds : List Decl} {n : Nat} (hv : c.verbose = true)
    (hf : ph = .entering ∨ c.failed = false) (hm : Bytes (memAt c ph)) (ha : Are 0 es ds) (hn : n = bytes ds) :
    Struct (memAt c ph) (c.arg 2) ds (struct c ph n es) := by
  subst hn
  constructor
  · intro hr
    obtain ⟨l, hl, hu⟩ := fetch_readable hv hf hr
    rw [struct, hl]
    exact ⟨_, rfl, shows_of hm hu ha (by omega)⟩
  · intro hr
    rw [struct, fetch_unreadable hr]

theorem are_bufReg : Are 0 bufReg (decls 22) := by simp [Are, Is, bufReg, decls, Ty.size, Ty.signed]
theorem are_syncCancel : Are 0 syncCancel (decls 24) := by simp [Are, Is, syncCancel, decls, Ty.size, Ty.signed]
theorem are_fileRange : Are 0 fileRange (decls 25) := by simp [Are, Is, fileRange, decls, Ty.size, Ty.signed]
theorem are_bufStatus : Are 0 bufStatus (decls 26) := by simp [Are, Is, bufStatus, decls, Ty.size, Ty.signed]
theorem are_napi : Are 0 napi (decls 27) := by simp [Are, Is, napi, decls, Ty.size, Ty.signed]
theorem are_clock : Are 0 clock (decls 29) := by simp [Are, Is, clock, decls, Ty.size, Ty.signed]
theorem are_cloneBuffers : Are 0 cloneBuffers (decls 30) := by simp [Are, Is, cloneBuffers, decls, Ty.size, Ty.signed]

/-- The operation and the flag are the two parts of the second argument. -/
theorem operation (c : Call) (h : c.arg 1 < 2 ^ 32) : c.arg 1 = opcode c + (if flag c = true then 2 ^ 31 else 0) ∧ opcode c < 2 ^ 31 := by
  unfold opcode flag
  have : (c.arg 1).testBit 31 = decide (c.arg 1 / 2 ^ 31 % 2 = 1) := Nat.testBit_eq_decide_div_mod_eq
  rw [this]
  simp only [decide_eq_true_eq]
  split <;> omega

/-- **The structure of an operation is shown when the call begins**, as it then is, whatever happens later. -/
theorem given {c : Call} (hv : c.verbose = true) (hm : Bytes c.before) (ho : opcode c ∈ [22, 23, 24, 25, 29, 30])
    (hn : count c = wanted (opcode c)) :
    ∃ t, run c = first c ++ t ++ [.num (count c)] ∧ Struct c.before (c.arg 2) (decls (opcode c)) t := by
  have key : ∀ {size : Nat} {ms : List Member}, argument c .entering (opcode c) (count c) false = (struct c .entering size ms, true, false) →
      Are 0 ms (decls (opcode c)) → size = bytes (decls (opcode c)) →
      ∃ t, run c = first c ++ t ++ [.num (count c)] ∧ Struct c.before (c.arg 2) (decls (opcode c)) t := by
    intro size ms h1 h2 h3
    refine ⟨struct c .entering size ms, ?_, struct_of (ph := .entering) hv (.inl rfl) hm h2 h3⟩
    rw [run, h1]
    rfl
  simp only [List.mem_cons, List.not_mem_nil, or_false] at ho
  rcases ho with ho | ho | ho | ho | ho | ho
  · refine key (size := 40) (ms := bufReg) ?_ (by rw [ho]; exact are_bufReg) (by rw [ho]; rfl)
    simp [argument, ho, early, hn, wanted]
  · refine key (size := 40) (ms := bufReg) ?_ (by rw [ho]; exact are_bufReg) (by rw [ho]; rfl)
    simp [argument, ho, early, hn, wanted]
  · refine key (size := 64) (ms := syncCancel) ?_ (by rw [ho]; exact are_syncCancel) (by rw [ho]; rfl)
    simp [argument, ho, early, hn, wanted]
  · refine key (size := 16) (ms := fileRange) ?_ (by rw [ho]; exact are_fileRange) (by rw [ho]; rfl)
    simp [argument, ho, early, hn, wanted]
  · refine key (size := 16) (ms := clock) ?_ (by rw [ho]; exact are_clock) (by rw [ho]; rfl)
    simp [argument, ho, early, hn, wanted]
  · refine key (size := 32) (ms := cloneBuffers) ?_ (by rw [ho]; exact are_cloneBuffers) (by rw [ho]; rfl)
    simp [argument, ho, early, hn, wanted]

/-- An operation with another number of arguments than it has to be given shows the address. -/
theorem miscounted {c : Call} (ho : opcode c ∈ [22, 23, 24, 25, 26, 27, 28, 29, 30]) (hn : count c ≠ wanted (opcode c)) :
    run c = first c ++ [.addr (c.arg 2), .num (count c)] := by
  simp only [List.mem_cons, List.not_mem_nil, or_false] at ho
  have key : argument c .entering (opcode c) (count c) false = ([.addr (c.arg 2)], true, false) := by
    rcases ho with ho | ho | ho | ho | ho | ho | ho | ho | ho <;> rw [ho, wanted] at hn <;>
      simp at hn <;> simp [argument, ho, early, late, registerNapi, hn]
  rw [run, key]
  simp

/-- **What an operation answers is shown when the call has ended**: the status of buffers and what was set before polling is
ended; after a failure the address is shown. -/
theorem answered {c : Call} (hv : c.verbose = true) (hm : Bytes c.after) (ho : opcode c = 26 ∨ opcode c = 28) (hn : count c = 1) :
    ∃ t, run c = first c ++ t ++ [.num (count c)]
      ∧ (c.failed = false → Struct c.after (c.arg 2) (decls (opcode c)) t) ∧ (c.failed = true → t = [.addr (c.arg 2)]) := by
  have key : ∀ {size : Nat} {ms : List Member}, argument c .entering (opcode c) (count c) false = ([], false, false) →
      argument c .exiting (opcode c) (count c) false = (struct c .exiting size ms, true, false) →
      Are 0 ms (decls (opcode c)) → size = bytes (decls (opcode c)) →
      ∃ t, run c = first c ++ t ++ [.num (count c)]
      ∧ (c.failed = false → Struct c.after (c.arg 2) (decls (opcode c)) t) ∧ (c.failed = true → t = [.addr (c.arg 2)]) := by
    intro size ms h0 h1 h2 h3
    refine ⟨struct c .exiting size ms, ?_, fun hf => struct_of (ph := .exiting) hv (.inr hf) hm h2 h3, ?_⟩
    · rw [run, h0]
      simp [h1]
    · intro hf
      rw [struct, fetch, if_neg (by simp [hf])]
  rcases ho with ho | ho
  · refine key (size := 40) (ms := bufStatus) ?_ ?_ (by rw [ho]; exact are_bufStatus) (by rw [ho]; rfl)
    · simp [argument, ho, late, hn]
    · simp [argument, ho, late, hn]
  · refine key (size := 16) (ms := napi) ?_ ?_ (by rw [ho]; exact are_napi) (by rw [ho]; rfl)
    · simp [argument, ho, late, hn]
    · simp [argument, ho, late, hn]

/-- **Polling is shown as it is asked for, and after success also as it was before**, behind an arrow. -/
theorem exchanged {c : Call} (hv : c.verbose = true) (hb : Bytes c.before) (ha : Bytes c.after) (ho : opcode c = 27) (hn : count c = 1)
    (hr : Readable c.before (c.arg 2) 16) :
    ∃ t, Struct c.before (c.arg 2) (decls 27) t
      ∧ (c.failed = true → run c = first c ++ t ++ [.num 1])
      ∧ (c.failed = false → ∃ u, Struct c.after (c.arg 2) (decls 27) u ∧ run c = first c ++ t ++ .changed :: u ++ [.num 1]) := by
  have h1 := struct_of (c := c) (ph := .entering) hv (.inl rfl) hb are_napi (n := 16) rfl
  obtain ⟨l, hl, -⟩ := fetch_readable (ph := .entering) hv (.inl rfl) hr
  have e1 : argument c .entering (opcode c) (count c) false = (struct c .entering 16 napi, false, false) := by
    simp [argument, ho, registerNapi, hn, hl]
  refine ⟨_, h1, ?_, ?_⟩
  · intro hf
    have e2 : argument c .exiting (opcode c) (count c) false = ([], false, false) := by
      simp [argument, ho, registerNapi, hf]
    rw [run, e1]
    simp only [Bool.false_eq_true, if_false, e2]
    rw [hn]
    simp
  · intro hf
    have e2 : (argument c .exiting (opcode c) (count c) false).1 = .changed :: struct c .exiting 16 napi := by
      simp [argument, ho, registerNapi, hf, hn]
    refine ⟨_, struct_of (ph := .exiting) hv (.inr hf) ha are_napi rfl, ?_⟩
    rw [run, e1]
    simp only [Bool.false_eq_true, if_false, e2]
    rw [hn]
    simp [bytes, decls, Ty.size]

theorem tok_num (l : List Nat) (e : Member) (v : Nat) : .num v ∉ Member.tok l e := by
  unfold Member.tok
  split <;> simp

theorem struct_num (c : Call) (ph : Phase) (n : Nat) (ms : List Member) (v : Nat) : .num v ∉ struct c ph n ms := by
  unfold struct
  split
  · simp
  · simp only [List.mem_cons, List.mem_append, List.mem_flatMap, not_or, reduceCtorEq, not_false_eq_true, List.not_mem_nil,
      or_false, true_and]
    rintro ⟨e, -, he⟩
    exact tok_num _ _ _ he

theorem early_num (c : Call) (ph : Phase) (n w k : Nat) (ms : List Member) (v : Nat) : .num v ∉ (early c ph n w k ms).1 := by
  unfold early
  split
  · simp
  · exact struct_num c ph k ms v

theorem late_num (c : Call) (ph : Phase) (n k : Nat) (ms : List Member) (v : Nat) : .num v ∉ (late c ph n k ms).1 := by
  unfold late
  split
  · simp
  · split
    · simp
    · exact struct_num c ph k ms v

theorem napi_num (c : Call) (ph : Phase) (n : Nat) (v : Nat) : .num v ∉ (registerNapi c ph n).1 := by
  have harrow : .num v ∉ (if ph = .exiting then [Tok.changed] else []) := by split <;> simp
  unfold registerNapi
  split
  · simp
  · dsimp only
    split
    · simp only [List.mem_append, not_or]
      exact ⟨harrow, by simp⟩
    · simp only [List.mem_append, not_or]
      exact ⟨harrow, struct_num c ph _ _ v⟩

theorem probe_num (c : Call) (ph : Phase) (n : Nat) (b : Bool) (v : Nat) : .num v ∉ (probe c ph n b).1 := by
  have harrow : .num v ∉ (if b = true then [Tok.changed] else []) := by split <;> simp
  unfold probe
  split
  · split <;> simp
  · split
    · simp
    · dsimp only
      split
      · simp only [List.mem_append, not_or]
        exact ⟨harrow, by simp⟩
      · split
        · exact harrow
        · simp only [List.mem_append, not_or]
          refine ⟨harrow, ?_⟩
          simp only [probeBody, List.mem_append, not_or, List.mem_flatMap]
          refine ⟨⟨by simp, ?_⟩, by simp⟩
          rintro ⟨e, -, he⟩
          exact tok_num _ _ _ he

theorem argument_num (c : Call) (ph : Phase) (o n : Nat) (b : Bool) (v : Nat) : .num v ∉ (argument c ph o n b).1 := by
  unfold argument
  split
  · exact probe_num c ph n b v
  · dsimp only
    split
    · simp
    split
    · cases ph
      · dsimp only
        split <;> simp
      · simp
    split
    · exact early_num _ _ _ _ _ _ v
    split
    · exact early_num _ _ _ _ _ _ v
    split
    · exact early_num _ _ _ _ _ _ v
    split
    · exact late_num _ _ _ _ _ v
    split
    · exact napi_num _ _ _ v
    split
    · exact late_num _ _ _ _ _ v
    split
    · exact early_num _ _ _ _ _ _ v
    split
    · exact early_num _ _ _ _ _ _ v
    · simp

/-- **Whatever the operation, the number of arguments is shown last, and only then**; the ring and the operation come first. -/
theorem framed (c : Call) : ∃ t, run c = first c ++ t ++ [.num (c.arg 3 % 2 ^ 32)] ∧ ∀ v, .num v ∉ t := by
  show ∃ t, run c = first c ++ t ++ [.num (count c)] ∧ ∀ v, .num v ∉ t
  have ha := argument_num c
  refine ⟨(argument c .entering (opcode c) (count c) false).1 ++
    (if (argument c .entering (opcode c) (count c) false).2.1 = true then []
     else (argument c .exiting (opcode c) (count c) (argument c .entering (opcode c) (count c) false).2.2).1), ?_, ?_⟩
  · rw [run]
    split <;> simp
  · intro v
    simp only [List.mem_append, not_or]
    refine ⟨ha _ _ _ _ v, ?_⟩
    split
    · simp
    · exact ha _ _ _ _ v

/-- The ring is a descriptor, or a number if the flag says that it is registered. -/
theorem ring_shown (c : Call) : ∃ t, first c = [t, .op (opcode c) (flag c)]
    ∧ ((c.arg 1).testBit 31 = true → t = .num (c.arg 0 % 2 ^ 32)) ∧ ((c.arg 1).testBit 31 = false → ∃ v, IsInt (c.arg 0) v ∧ t = .fd v) := by
  refine ⟨_, rfl, ?_, ?_⟩
  · intro h
    rw [flag, if_pos h]
  · intro h
    rw [flag, if_neg (by simp [h])]
    refine ⟨_, ?_, rfl⟩
    simp only [IsInt, int]
    have h1 := Nat.div_add_mod (c.arg 0) (2 ^ 32)
    have h2 := Nat.mod_lt (c.arg 0) (show 0 < 2 ^ 32 by decide)
    split
    · refine ⟨by omega, by omega, (c.arg 0 / 2 ^ 32 : Nat), by omega⟩
    · refine ⟨by omega, by omega, (c.arg 0 / 2 ^ 32 : Nat) + 1, by omega⟩

/-- The operations on arrays show them; those without an argument, and those that are not known, show the address. -/
theorem remaining {c : Call} :
    (opcode c ∈ [0, 2, 4, 6, 7, 11, 13, 14, 15, 16, 17, 20, 21] →
      run c = first c ++ [.arr (opcode c) (c.arg 2) (count c), .num (count c)])
    ∧ (opcode c ∈ [1, 3, 5, 9, 10, 12, 18] ∨ 30 < opcode c → run c = first c ++ [.addr (c.arg 2), .num (count c)]) := by
  constructor
  · intro h
    have h8 : ¬ opcode c = 8 := by
      intro h'
      rw [h'] at h
      exact absurd h (by decide)
    rw [run, argument, if_neg h8, if_pos h]
    simp
  · intro h
    have hm : ∀ k ∈ [0, 2, 4, 6, 7, 8, 11, 13, 14, 15, 16, 17, 19, 20, 21, 22, 23, 24, 25, 26, 27, 28, 29, 30], opcode c ≠ k := by
      intro k hk h'
      rw [h'] at h
      rcases h with h | h
      · clear h'
        revert h
        revert k
        decide
      · clear h'
        revert h
        revert k
        decide
    have e : argument c .entering (opcode c) (count c) false = ([.addr (c.arg 2)], true, false) := by
      simp only [List.mem_cons, List.not_mem_nil, or_false, forall_eq_or_imp, forall_eq] at hm
      simp [argument, hm]
    rw [run, e]
    simp

/-- The numbers of workers are shown as given and as they were; if not all of those that are given can be shown, only as given. -/
theorem workers {c : Call} (ho : opcode c = 19) :
    run c = first c ++ [.arr 19 (c.arg 2) (count c)] ++
      (if c.whole = true then [.changed, .arr 19 (c.arg 2) (count c)] else []) ++ [.num (count c)] := by
  rw [run, argument, if_neg (by omega)]
  simp only [ho]
  cases c.whole <;> simp [argument]

theorem body_probe {m : Mem} (hm : Bytes m) {p n : Nat} {l : List Nat} (h : umoven m p (8 * n + 16) = some l) (ph : Phase) :
    Probe m p (if ph = .entering then n else min (word m (p + 1) 1) n) (decide (ph = .exiting ∧ n < word m (p + 1) 1)) (probeBody ph n l) := by
  have e1 : number ((l.drop 1).take 1) = word m (p + 1) 1 := part h (by omega)
  have e0 : number (l.take 1) = word m p 1 := part h (o := 0) (w := 1) (by omega)
  refine ⟨probeReserved.flatMap (Member.tok l),
    (List.range (if ph = .entering then n else min (word m (p + 1) 1) n)).map (probeOp l), ?_, ?_, ?_, ?_⟩
  · simp only [probeBody, e0, e1]
    simp
  · exact shows_of hm h (o := 2) (by simp [Are, Is, probeReserved, Ty.size, Ty.signed]) (by simp [bytes, Ty.size])
  · simp
  · intro i e he
    rw [List.getElem?_map] at he
    obtain ⟨j, hj, rfl⟩ := Option.map_eq_some_iff.1 he
    have hlt : i < (if ph = .entering then n else min (word m (p + 1) 1) n) := by
      have := (List.getElem?_eq_some_iff.1 hj).1
      simpa using this
    have hji : j = i := by
      rw [List.getElem?_range hlt] at hj
      exact (Option.some.inj hj).symm
    subst hji
    have hj' : j < n := by split at hlt <;> omega
    simp only [probeOp]
    rw [part h (o := 16 + 8 * j) (w := 1) (by omega), part h (o := 17 + 8 * j) (w := 1) (by omega),
      part h (o := 18 + 8 * j) (w := 2) (by omega), part h (o := 20 + 8 * j) (w := 4) (by omega)]
    simp only [Nat.add_assoc]

/-- **A probe that a program has filled with zeroes is shown as the kernel has answered it**, with the operations that there are
and for which there is room, and by its address if the call has failed. -/
theorem probed {c : Call} (hv : c.verbose = true) (ha : Bytes c.after) (ho : opcode c = 8) (hn : count c ≤ 256)
    (hp : c.arg 2 ≠ 0) (hz : ∀ i, i < 8 * count c + 16 → c.before (c.arg 2 + i) = some 0)
    (hr : Readable c.after (c.arg 2) (8 * count c + 16)) :
    ∃ t, run c = first c ++ t ++ [.num (count c)]
      ∧ (c.failed = true → t = [.addr (c.arg 2)])
      ∧ (c.failed = false → Probe c.after (c.arg 2) (min (word c.after (c.arg 2 + 1) 1) (count c))
          (decide (count c < word c.after (c.arg 2 + 1) 1)) t) := by
  have hb : Readable c.before (c.arg 2) (8 * count c + 16) := ⟨hp, fun i hi => by rw [hz i hi]; rfl⟩
  obtain ⟨l, hl, hu⟩ := fetch_readable (ph := .entering) hv (.inl rfl) hb
  have hzero : l.all (· == 0) = true := by
    rw [umoven_bytes hu]
    simp only [List.all_eq_true, List.mem_map, List.mem_range, beq_iff_eq]
    rintro x ⟨i, hi, rfl⟩
    show (c.before (c.arg 2 + i)).getD 0 = 0
    rw [hz i hi]
    rfl
  have e1 : argument c .entering (opcode c) (count c) false = ([], false, false) := by
    rw [argument, if_pos ho, probe, if_neg (by simp), if_neg (by omega)]
    simp only [hl, hzero]
    rfl
  refine ⟨(probe c .exiting (count c) false).1, ?_, ?_, ?_⟩
  · rw [run, e1]
    simp only [Bool.false_eq_true, if_false, argument, ho, if_true]
    simp
  · intro hf
    rw [probe, if_pos ⟨rfl, hf⟩]
    rfl
  · intro hf
    obtain ⟨l', hl', hu'⟩ := fetch_readable (ph := .exiting) hv (.inr hf) hr
    have := body_probe ha hu' .exiting
    rw [probe, if_neg (by simp [hf]), if_neg (by omega)]
    simp only [hl']
    simpa using this

/-- **A probe that is not filled with zeroes is shown as it is given, and after success also as it is answered**, behind an
arrow. -/
theorem probe_changed {c : Call} (hv : c.verbose = true) (hb : Bytes c.before) (ha : Bytes c.after) (ho : opcode c = 8)
    (hn : count c ≤ 256) (hrb : Readable c.before (c.arg 2) (8 * count c + 16)) (hr : Readable c.after (c.arg 2) (8 * count c + 16))
    (hz : ∃ i, i < 8 * count c + 16 ∧ c.before (c.arg 2 + i) ≠ some 0) :
    ∃ t, Probe c.before (c.arg 2) (count c) false t
      ∧ (c.failed = true → run c = first c ++ t ++ [.num (count c)])
      ∧ (c.failed = false → ∃ u, run c = first c ++ t ++ .changed :: u ++ [.num (count c)]
          ∧ Probe c.after (c.arg 2) (min (word c.after (c.arg 2 + 1) 1) (count c))
              (decide (count c < word c.after (c.arg 2 + 1) 1)) u) := by
  obtain ⟨l, hl, hu⟩ := fetch_readable (ph := .entering) hv (.inl rfl) hrb
  have hnz : ¬ l.all (· == 0) = true := by
    intro h
    obtain ⟨i, hi, hne⟩ := hz
    rw [umoven_bytes hu] at h
    simp only [List.all_eq_true, List.mem_map, List.mem_range, beq_iff_eq] at h
    have h0 : (c.before (c.arg 2 + i)).getD 0 = 0 := h _ ⟨i, hi, rfl⟩
    have hs := hrb.2 i hi
    cases hx : c.before (c.arg 2 + i) with
    | none => rw [hx] at hs; cases hs
    | some b =>
      rw [hx] at h0 hne
      exact hne (congrArg some h0)
  have e1 : argument c .entering (opcode c) (count c) false = (probeBody .entering (count c) l, false, true) := by
    rw [argument, if_pos ho, probe, if_neg (by simp), if_neg (by omega)]
    simp only [hl, hnz]
    simp
  have hpb := body_probe hb hu .entering
  refine ⟨_, by simpa using hpb, ?_, ?_⟩
  · intro hf
    rw [run, e1]
    simp only [Bool.false_eq_true, if_false, argument, ho, if_true, probe, hf, and_self]
    simp
  · intro hf
    obtain ⟨l', hl', hu'⟩ := fetch_readable (ph := .exiting) hv (.inr hf) hr
    have := body_probe ha hu' .exiting
    refine ⟨probeBody .exiting (count c) l', ?_, by simpa using this⟩
    rw [run, e1]
    simp only [Bool.false_eq_true, if_false, argument, ho, if_true]
    rw [probe, if_neg (by simp [hf]), if_neg (by omega)]
    simp [hl']

/-! ## What is not shown -/

def status (group : Nat) : Call where
  arg i := if i = 1 then 26 else if i = 2 then 4096 else if i = 3 then 1 else 5
  before a := some (if a = 4096 then group else 0)
  after a := some (if a = 4096 then group else 0)
  failed := true
  verbose := true
  whole := false

/-- **The group of buffers whose status a program asks for is not shown if the call fails.** -/
theorem group_hidden : ∃ c d : Call, opcode c = 26 ∧ opcode d = 26 ∧ count c = 1 ∧ count d = 1 ∧ c.verbose = true ∧ d.verbose = true
    ∧ Readable c.before (c.arg 2) 40 ∧ Readable d.before (d.arg 2) 40
    ∧ word c.before (c.arg 2) 4 ≠ word d.before (d.arg 2) 4 ∧ run c = run d :=
  ⟨status 1, status 2, rfl, rfl, rfl, rfl, rfl, rfl, ⟨by decide, fun _ _ => rfl⟩, ⟨by decide, fun _ _ => rfl⟩, by decide,
   by decide +kernel⟩

/-! ## Concrete cases -/

example : run (status 1) = [.fd 5, .op 26 false, .addr 4096, .num 1] := by decide +kernel
example : run { status 7 with failed := false } =
    [.fd 5, .op 26 false, .opened, .fld "buf_group" [7], .fld "head" [0], .closed, .num 1] := by decide +kernel
example : run { status 7 with arg := fun i => if i = 1 then 30 + 2 ^ 31 else if i = 2 then 4096 else 1 } =
    [.num 1, .op 30 true, .opened, .fld "src_fd" [7], .fld "flags" [0], .fld "src_off" [0], .fld "dst_off" [0], .fld "nr" [0],
     .closed, .num 1] := by decide +kernel
example : Bytes (status 7).before := by
  intro a b h
  have : b = if a = 4096 then 7 else 0 := (Option.some.inj h).symm
  split at this <;> omega
example : run { status 9 with failed := false, arg := fun i => if i = 1 then 27 else if i = 2 then 4096 else 1, after := fun _ => some 0 } =
    [.fd 1, .op 27 false, .opened, .fld "busy_poll_to" [9], .fld "prefer_busy_poll" [0], .fld "opcode" [0], .fld "op_param" [0],
     .closed, .changed, .opened, .fld "busy_poll_to" [0], .fld "prefer_busy_poll" [0], .fld "opcode" [0], .fld "op_param" [0],
     .closed, .num 1] := by decide +kernel

example : run { status 7 with failed := false, after := fun a => some (if a = 4097 then 2 else 0),
                              before := fun _ => some 0, arg := fun i => if i = 1 then 8 else if i = 2 then 4096 else 1 } =
    [.fd 1, .op 8 false, .opened, .fld "last_op" [0], .fld "ops_len" [2], .ops [(0, 0, 0, 0)] true, .closed, .num 1] := by
  decide +kernel
example : run { status 7 with after := fun _ => some 0, arg := fun i => if i = 1 then 8 else if i = 2 then 4096 else 1 } =
    [.fd 1, .op 8 false, .opened, .fld "last_op" [7], .fld "ops_len" [0], .ops [(0, 0, 0, 0)] false, .closed, .num 1] := by
  decide +kernel
example : run { status 7 with whole := true, arg := fun i => if i = 1 then 19 else 2 } =
    [.fd 2, .op 19 false, .arr 19 2 2, .changed, .arr 19 2 2, .num 2] := by decide +kernel

end Strace.Rreg
