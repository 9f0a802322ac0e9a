import Verif.Seccomp.Lemmas
namespace Strace.Seccomp

/-! ### C15: the generated programs select exactly the traced calls -/

/-- The program of the first generator: calls of a known personality and within its table stop the tracee
iff they are traced; calls beyond the table or of an unknown architecture always do. -/
theorem linear_selects (ps : List Pers) (hps : 1 < ps.length) (hs : ∀ p ∈ ps, Sane p) (prog : List Insn)
    (h : linearGen ps = (prog, false)) (hlen : prog.length ≤ 4096) (d : Data) (a x : Nat) :
    (∀ p, Governs ps d p → run d prog a x =
      some (if d.nr - p.flag < p.n ∧ p.traced (d.nr - p.flag) = false then ALLOW else TRACE)) ∧
    (Foreign ps d → run d prog a x = some TRACE) := by
  have := run_generate d linSection none linVerdict ps hps (by intro l h; cases h)
    (fun p hp pos s rest x h _ => run_linSection d p (hs p hp) pos s rest x h) prog h hlen a x
  rw [this]
  refine ⟨fun p hg => ?_, fun hf => decideBy_foreign _ _ _ hf⟩
  rw [decideBy_governs _ _ _ _ hg, linVerdict]
  split <;> rfl

/-- The program of the second generator: calls of a known personality stop the tracee iff they are within
its table and traced (calls beyond the table are let through); calls of an unknown architecture always
stop it. -/
theorem binary_selects (ps : List Pers) (hps : 1 < ps.length) (hs : ∀ p ∈ ps, Sane p) (prog : List Insn)
    (h : binaryGen ps = (prog, false)) (hlen : prog.length ≤ 4096) (d : Data) (hnr : d.nr < 2 ^ 32) (a x : Nat) :
    (∀ p, Governs ps d p → run d prog a x =
      some (if d.nr - p.flag < p.n ∧ p.traced (d.nr - p.flag) = true then TRACE else ALLOW)) ∧
    (Foreign ps d → run d prog a x = some TRACE) := by
  have := run_generate d binSection (some 4096) binVerdict ps hps (by intro l h; injection h; omega)
    (fun p hp pos s rest x h hl => run_binSection d p (hs p hp) hnr pos s rest x h hl) prog h hlen a x
  rw [this]
  refine ⟨fun p hg => ?_, fun hf => decideBy_foreign _ _ _ hf⟩
  rw [decideBy_governs _ _ _ _ hg, binVerdict]
  split <;> rfl

/-- with a single personality there is no architecture check -/
theorem linear_selects_one (p : Pers) (hs : Sane p) (prog : List Insn)
    (h : linearGen [p] = (prog, false)) (d : Data) (hfl : p.flag ≤ d.nr) (a x : Nat) :
    run d prog a x =
      some (if d.nr - p.flag < p.n ∧ p.traced (d.nr - p.flag) = false then ALLOW else TRACE) := by
  have := run_linSection1 d p hs 0 prog [] a x hfl (generate_one _ _ _ _ h)
  rw [List.append_nil] at this
  rw [this, linVerdict]; split <;> rfl

theorem binary_selects_one (p : Pers) (hs : Sane p) (prog : List Insn)
    (h : binaryGen [p] = (prog, false)) (hlen : prog.length ≤ 4096) (d : Data) (hnr : d.nr < 2 ^ 32)
    (hfl : p.flag ≤ d.nr) (a x : Nat) :
    run d prog a x =
      some (if d.nr - p.flag < p.n ∧ p.traced (d.nr - p.flag) = true then TRACE else ALLOW) := by
  have := run_binSection1 d p hs hnr 0 prog [] a x hfl (generate_one _ _ _ _ h) (by omega)
  rw [List.append_nil] at this
  rw [this, binVerdict]; split <;> rfl

theorem chooseProg_cases {ps : List Pers} {prog : List Insn} (h : chooseProg ps = some prog) :
    (linearGen ps = (prog, false) ∨ binaryGen ps = (prog, false)) ∧ prog.length ≤ 4096 := by
  unfold chooseProg at h
  dsimp only at h
  split at h
  · cases h
  · split at h
    · cases h
    · injection h with h
      subst h
      rename_i hne hle
      unfold better at *
      generalize hL : linearGen ps = L at *
      generalize hB : binaryGen ps = B at *
      obtain ⟨l, lo⟩ := L
      obtain ⟨b, bo⟩ := B
      by_cases h1 : l.length < 65535 ∧ lo = false
      · simp only [h1, and_self, ite_true] at hne hle ⊢
        by_cases h2 : b.length < l.length ∧ bo = false
        · simp only [h2, and_self, ite_true] at hne hle ⊢
          exact ⟨Or.inr (by simp [h2.2]), by omega⟩
        · simp only [h2, ite_false] at hne hle ⊢
          exact ⟨Or.inl (by simp [h1.2]), by omega⟩
      · simp only [h1, ite_false] at hne hle ⊢
        by_cases h2 : b.length < 65535 ∧ bo = false
        · simp only [h2, and_self, ite_true] at hne hle ⊢
          exact ⟨Or.inr (by simp [h2.2]), by omega⟩
        · simp only [h2, ite_false] at hne
          exact absurd trivial (by simpa using hne)

/-- **C15.**  Whatever program strace installs, a call with a number in the table of its personality stops
the tracee iff it is traced, and a call of an unknown architecture stops it. -/
theorem installed_selects (ps : List Pers) (hps : 1 < ps.length) (hs : ∀ p ∈ ps, Sane p) (prog : List Insn)
    (h : chooseProg ps = some prog) (d : Data) (hnr : d.nr < 2 ^ 32) :
    (∀ p, Governs ps d p → d.nr - p.flag < p.n →
      run d prog 0 0 = some (if p.traced (d.nr - p.flag) = true then TRACE else ALLOW)) ∧
    (Foreign ps d → run d prog 0 0 = some TRACE) := by
  obtain ⟨hc, hlen⟩ := chooseProg_cases h
  rcases hc with hc | hc
  · have := linear_selects ps hps hs prog hc hlen d 0 0
    refine ⟨fun p hg hn => ?_, this.2⟩
    rw [this.1 p hg]
    cases ht : p.traced (d.nr - p.flag) <;> simp [hn]
  · have := binary_selects ps hps hs prog hc hlen d hnr 0 0
    refine ⟨fun p hg hn => ?_, this.2⟩
    rw [this.1 p hg]
    cases ht : p.traced (d.nr - p.flag) <;> simp [hn]

theorem installed_selects_one (p : Pers) (hs : Sane p) (prog : List Insn)
    (h : chooseProg [p] = some prog) (d : Data) (hnr : d.nr < 2 ^ 32) (hfl : p.flag ≤ d.nr)
    (hn : d.nr - p.flag < p.n) :
    run d prog 0 0 = some (if p.traced (d.nr - p.flag) = true then TRACE else ALLOW) := by
  obtain ⟨hc, hlen⟩ := chooseProg_cases h
  rcases hc with hc | hc
  · rw [linear_selects_one p hs prog hc d hfl]
    cases ht : p.traced (d.nr - p.flag) <;> simp [hn]
  · rw [binary_selects_one p hs prog hc hlen d hnr hfl]
    cases ht : p.traced (d.nr - p.flag) <;> simp [hn]

/-- both generators agree on numbers within the table -/
theorem generators_agree (ps : List Pers) (hps : 1 < ps.length) (hs : ∀ p ∈ ps, Sane p) (l b : List Insn)
    (hl : linearGen ps = (l, false)) (hb : binaryGen ps = (b, false))
    (hll : l.length ≤ 4096) (hbl : b.length ≤ 4096) (d : Data) (hnr : d.nr < 2 ^ 32)
    (hd : Foreign ps d ∨ ∃ p, Governs ps d p ∧ d.nr - p.flag < p.n) :
    run d l 0 0 = run d b 0 0 := by
  have h1 := linear_selects ps hps hs l hl hll d 0 0
  have h2 := binary_selects ps hps hs b hb hbl d hnr 0 0
  rcases hd with hf | ⟨p, hg, hn⟩
  · rw [h1.2 hf, h2.2 hf]
  · rw [h1.1 p hg, h2.1 p hg]
    cases ht : p.traced (d.nr - p.flag) <;> simp [hn]

/-- which flags always make a call visible to strace, and otherwise the user's selection decides -/
theorem traced_iff (stackTrace decodeComm : Bool) (sysFlags : Nat → Nat) (inSet : Nat → Bool) (scno : Nat) :
    tracedBySeccomp stackTrace decodeComm sysFlags inSet scno = true ↔
      inSet scno = true ∨ (sysFlags scno).testBit 10 = true ∨ (sysFlags scno).testBit 20 = true ∨
      (stackTrace = true ∧ (sysFlags scno).testBit 8 = true) ∨
      (decodeComm = true ∧ (sysFlags scno).testBit 23 = true) := by
  unfold tracedBySeccomp
  generalize hF : sysFlags scno = F
  have key : ∀ m : Nat, F &&& m ≠ 0 ↔ ∃ i, F.testBit i = true ∧ m.testBit i = true := by
    intro m
    constructor
    · intro h
      obtain ⟨i, hi⟩ := Nat.exists_testBit_of_ne_zero h
      rw [Nat.testBit_and] at hi
      exact ⟨i, by simpa using hi⟩
    · rintro ⟨i, h1, h2⟩ h0
      have : (F &&& m).testBit i = true := by rw [Nat.testBit_and, h1, h2]; rfl
      rw [h0] at this; simp at this
  rw [Bool.or_eq_true, decide_eq_true_iff, key]
  have hb : ∀ i, (TRACE_INDIRECT_SUBCALL ||| TRACE_SECCOMP_DEFAULT |||
      (if stackTrace then MEMORY_MAPPING_CHANGE else 0) ||| (if decodeComm then COMM_CHANGE else 0)).testBit i = true ↔
      (i = 10 ∨ i = 20 ∨ (stackTrace = true ∧ i = 8) ∨ (decodeComm = true ∧ i = 23)) := by
    intro i
    rw [Nat.testBit_or, Nat.testBit_or, Nat.testBit_or,
      show TRACE_INDIRECT_SUBCALL = 2 ^ 10 from rfl, show TRACE_SECCOMP_DEFAULT = 2 ^ 20 from rfl,
      show MEMORY_MAPPING_CHANGE = 2 ^ 8 from rfl, show COMM_CHANGE = 2 ^ 23 from rfl]
    cases stackTrace <;> cases decodeComm <;>
      simp only [ite_true, ite_false, Bool.false_eq_true, Nat.testBit_two_pow, Nat.zero_testBit, Bool.or_eq_true,
        decide_eq_true_eq, false_and, true_and, or_false, Bool.or_false, false_or] <;> omega
  constructor
  · rintro (⟨i, h1, h2⟩ | h)
    · rcases (hb i).mp h2 with rfl | rfl | ⟨hh, rfl⟩ | ⟨hh, rfl⟩
      · exact Or.inr (Or.inl h1)
      · exact Or.inr (Or.inr (Or.inl h1))
      · exact Or.inr (Or.inr (Or.inr (Or.inl ⟨hh, h1⟩)))
      · exact Or.inr (Or.inr (Or.inr (Or.inr ⟨hh, h1⟩)))
    · exact Or.inl h
  · rintro (h | h | h | ⟨hh, h⟩ | ⟨hh, h⟩)
    · exact Or.inr h
    · exact Or.inl ⟨10, h, (hb 10).mpr (by simp)⟩
    · exact Or.inl ⟨20, h, (hb 20).mpr (by simp)⟩
    · exact Or.inl ⟨8, h, (hb 8).mpr (by simp [hh])⟩
    · exact Or.inl ⟨23, h, (hb 23).mpr (by simp [hh])⟩

/-! ### C16: the generated programs are accepted by the kernel -/

/-- all instructions good, with `t` instructions following the list -/
def okFrom : List Insn → Nat → Prop
  | [], _ => True
  | ins :: is, t => InsnOk ins (is.length + t) ∧ okFrom is t

theorem okFrom_append (a b : List Insn) (t : Nat) : okFrom (a ++ b) t ↔ okFrom a (b.length + t) ∧ okFrom b t := by
  induction a with
  | nil => simp [okFrom]
  | cons x a ih =>
    simp only [List.cons_append, okFrom, ih, List.length_append, and_assoc]
    rw [Nat.add_assoc]

theorem okFrom_get (l : List Insn) (t : Nat) (h : okFrom l t) (i : Nat) (ins : Insn) (hi : l[i]? = some ins) :
    InsnOk ins (l.length - i - 1 + t) := by
  induction l generalizing i with
  | nil => simp at hi
  | cons x l ih =>
    cases i with
    | zero =>
      simp only [List.getElem?_cons_zero, Option.some.injEq] at hi
      subst hi
      simpa [okFrom] using h.1
    | succ i =>
      simp only [List.getElem?_cons_succ] at hi
      have := ih h.2 i hi
      rw [List.length_cons, show l.length + 1 - (i + 1) - 1 = l.length - i - 1 from by omega]
      exact this

theorem insnOk_mono {ins : Insn} {a b : Nat} (h : InsnOk ins a) (hab : a ≤ b) : InsnOk ins b := by
  rcases h with h | ⟨h, h'⟩ | ⟨h, h2, h'⟩ | ⟨h, h2, h'⟩ | ⟨h, h'⟩ | ⟨h, h1, h2, h3, h4⟩
  · exact Or.inl h
  · exact Or.inr (Or.inl ⟨h, by omega⟩)
  · exact Or.inr (Or.inr (Or.inl ⟨h, h2, by omega⟩))
  · exact Or.inr (Or.inr (Or.inr (Or.inl ⟨h, h2, by omega⟩)))
  · exact Or.inr (Or.inr (Or.inr (Or.inr (Or.inl ⟨h, by omega⟩))))
  · exact Or.inr (Or.inr (Or.inr (Or.inr (Or.inr ⟨h, by omega, by omega, h3, h4⟩))))

theorem okFrom_mono {l : List Insn} {a b : Nat} (h : okFrom l a) (hab : a ≤ b) : okFrom l b := by
  induction l with
  | nil => trivial
  | cons x l ih => exact ⟨insnOk_mono h.1 (by omega), ih h.2⟩

theorem ok_cond {code k jt jf after : Nat} (hc : code ∈ [JEQ_K, JGE_K, JSET_K]) (h1 : jt < after) (h2 : jf < after)
    (h3 : jt < 256) (h4 : jf < 256) : InsnOk (jump code k jt jf) after :=
  Or.inr (Or.inr (Or.inr (Or.inr (Or.inr ⟨hc, h1, h2, h3, h4⟩))))
theorem ok_plain {code k after : Nat} (hc : code ∈ [LD_IMM, AND_K, LSH_X, TAX, TXA]) (h : 0 < after) :
    InsnOk (stmt code k) after := Or.inr (Or.inl ⟨hc, h⟩)
theorem ok_nr {after : Nat} (h : 0 < after) : InsnOk (stmt LD_ABS OFF_NR) after :=
  Or.inr (Or.inr (Or.inr (Or.inl ⟨rfl, Or.inl rfl, h⟩)))
theorem ok_arch {after : Nat} (h : 0 < after) : InsnOk (stmt LD_ABS OFF_ARCH) after :=
  Or.inr (Or.inr (Or.inr (Or.inl ⟨rfl, Or.inr rfl, h⟩)))
theorem ok_rsh {after : Nat} (h : 0 < after) : InsnOk (stmt RSH_K 5) after :=
  Or.inr (Or.inr (Or.inl ⟨rfl, by decide, h⟩))
theorem ok_ret {k after : Nat} : InsnOk (stmt RET_K k) after := Or.inl rfl

theorem ok_cmp (l u pos i T : Nat) (hT : 2 ≤ T) (hpos : pos = i + (syscallsCmp l u).length + T)
    (hsmall : pos - i ≤ 255) : okFrom (patch pos i (syscallsCmp l u)) T := by
  unfold syscallsCmp at hpos ⊢
  split
  · rename_i h; rw [if_pos h] at hpos; simp only [List.length_singleton] at hpos
    simp only [patch]
    rw [fix_jump (by decide) (by decide), replaceJ_trace, replaceJ_small (by omega)]
    exact ⟨ok_cond (by decide) (by simp; omega) (by simp; omega) (by omega) (by omega), trivial⟩
  · rename_i h; rw [if_neg h] at hpos; simp only [List.length_cons, List.length_nil] at hpos
    simp only [patch]
    rw [fix_jump (by decide) (by decide), fix_jump (by decide) (by decide), replaceJ_trace, replaceJ_small (by omega),
      replaceJ_small (by omega), replaceJ_small (by omega)]
    exact ⟨ok_cond (by decide) (by simp; omega) (by simp; omega) (by omega) (by omega),
      ok_cond (by decide) (by simp; omega) (by simp; omega) (by omega) (by omega), trivial⟩

theorem ok_cmpLoop (p : Pers) (i : Nat) (lower : Option Nat) : ∀ (pos idx : Nat),
    pos = idx + (cmpLoop p i lower).length + 3 → pos - idx ≤ 255 →
    okFrom (patch pos idx (cmpLoop p i lower)) 3 := by
  fun_induction cmpLoop p i lower with
  | case1 i hin ht ih => exact ih
  | case2 i hin ht l ih => exact ih
  | case3 i hin ht ih => exact ih
  | case4 i hin ht l ih =>
    intro pos idx hpos hsmall
    rw [List.length_append] at hpos
    rw [patch_append, okFrom_append]
    refine ⟨ok_cmp _ _ _ _ _ (by omega) (by rw [patch_length]; omega) hsmall, ih _ _ (by omega) (by omega)⟩
  | case5 i hin => intros; trivial
  | case6 i hin l =>
    intro pos idx hpos hsmall
    exact ok_cmp _ _ _ _ _ (by omega) (by omega) hsmall

theorem ok_entry (p : Pers) (pos idx T R : Nat) (hR : 0 < R) (hT : 0 < T)
    (hpos : pos = idx + (linPrelude true p).length + T) (hsmall : pos - idx ≤ 255) :
    okFrom (patch pos idx (linPrelude true p)) (T + R) := by
  by_cases hf : p.flag = 0
  · simp [linPrelude, hf] at hpos
    simp only [linPrelude, hf, ite_true, ne_eq, not_true, decide_false, Bool.and_false, Bool.false_eq_true,
      ite_false, List.cons_append, List.nil_append, patch]
    rw [fix_jump (by decide) (by decide), replaceJ_next, replaceJ_small (by omega), fix_stmt (by decide)]
    exact ⟨ok_cond (by decide) (by simp; omega) (by simp; omega) (by omega) (by omega),
      ok_nr (by simp; omega), trivial⟩
  · simp [linPrelude, hf] at hpos
    simp only [linPrelude, hf, ite_true, ne_eq, not_false_eq_true, decide_true, Bool.and_true,
      List.cons_append, List.nil_append, patch]
    rw [fix_jump (by decide) (by decide), replaceJ_next, replaceJ_small (by omega),
      fix_stmt (by decide), fix_jump (by decide) (by decide), replaceJ_small (by omega),
      replaceJ_small (by omega), fix_stmt (by decide), fix_ja]
    refine ⟨ok_cond (by decide) (by simp; omega) (by simp; omega) (by omega) (by omega),
      ok_nr (by simp <;> omega), ok_cond (by decide) (by simp <;> omega) (by simp <;> omega) (by omega) (by omega),
      ok_arch (by simp <;> omega), ?_, trivial⟩
    exact Or.inr (Or.inr (Or.inr (Or.inr (Or.inl ⟨rfl, by simp [jump]; omega⟩))))

theorem ok_entry1 (p : Pers) (pos idx T : Nat) (hT : 0 < T) :
    okFrom (patch pos idx (linPrelude false p)) T := by
  simp only [linPrelude, Bool.false_eq_true, ite_false, Bool.false_and, List.nil_append, List.append_nil, patch]
  rw [fix_stmt (by decide)]
  exact ⟨ok_nr (by simp; omega), trivial⟩

theorem ok_rets (t : Nat) : okFrom rets t := ⟨ok_ret, ok_ret, trivial⟩

theorem ok_linSection {multi : Bool} {p : Pers} {pos : Nat} {sec : List Insn} (h : linSection multi pos p = (sec, false))
    {R : Nat} (hR : multi = true → 0 < R) : okFrom sec R := by
  obtain ⟨hL, rfl⟩ := linSection_eq h
  generalize hLe : (linPrelude multi p).length + (cmpLoop p 0 none).length + 3 = L at *
  rw [okFrom_append, okFrom_append, okFrom_append]
  refine ⟨⟨⟨?_, ?_⟩, ?_⟩, ok_rets R⟩
  · cases multi
    · exact ok_entry1 p _ _ _ (by simp [rets]; omega)
    · rw [patch_length, show (cmpLoop p 0 none).length + ([linTail p].length + (rets.length + R)) =
        ((cmpLoop p 0 none).length + 3) + R from by simp [rets]; omega]
      exact ok_entry p _ _ _ R (hR rfl) (by omega) (by omega) (by omega)
  · exact okFrom_mono (ok_cmpLoop p 0 none (pos + L) _ (by omega) (by omega)) (by simp [rets]; omega)
  · exact ⟨ok_cond (by decide) (by simp [rets]; omega) (by simp [rets]; omega) (by omega) (by omega), trivial⟩

theorem ok_match (bits w pos i T : Nat) (hT : 2 ≤ T) (hpos : pos = i + (syscallsMatch bits w).length + T)
    (hsmall : pos - i ≤ 255) : okFrom (patch pos i (syscallsMatch bits w)) T := by
  unfold syscallsMatch at hpos ⊢
  by_cases h0 : bits = 0
  · rw [if_pos h0] at hpos ⊢; simp only [List.length_singleton] at hpos
    simp only [patch]
    rw [fix_jump (by decide) (by decide), replaceJ_allow, replaceJ_small (by omega)]
    exact ⟨ok_cond (by decide) (by simp; omega) (by simp; omega) (by omega) (by omega), trivial⟩
  · rw [if_neg h0] at hpos ⊢
    by_cases h1 : bits = 2 ^ 32 - 1
    · rw [if_pos h1] at hpos ⊢; simp only [List.length_singleton] at hpos
      simp only [patch]
      rw [fix_jump (by decide) (by decide), replaceJ_trace, replaceJ_small (by omega)]
      exact ⟨ok_cond (by decide) (by simp; omega) (by simp; omega) (by omega) (by omega), trivial⟩
    · rw [if_neg h1] at hpos ⊢; simp only [List.length_cons, List.length_nil] at hpos
      simp only [patch]
      rw [fix_jump (by decide) (by decide), replaceJ_small (by omega), replaceJ_small (by omega),
        fix_stmt (by decide), fix_jump (by decide) (by decide), replaceJ_trace, replaceJ_allow]
      exact ⟨ok_cond (by decide) (by simp; omega) (by simp; omega) (by omega) (by omega),
        ok_plain (by decide) (by simp <;> omega),
        ok_cond (by decide) (by simp; omega) (by simp; omega) (by omega) (by omega), trivial⟩

theorem ok_matchLoop (p : Pers) (w i bits : Nat) : ∀ (pos idx : Nat),
    pos = idx + (matchLoop p w i bits).length + 2 → pos - idx ≤ 255 →
    okFrom (patch pos idx (matchLoop p w i bits)) 2 := by
  fun_induction matchLoop p w i bits with
  | case1 w i bits hin h31 ih =>
    intro pos idx hpos hsmall
    rw [List.length_append] at hpos
    rw [patch_append, okFrom_append]
    refine ⟨ok_match _ _ _ _ _ (by omega) (by rw [patch_length]; omega) hsmall, ih _ _ (by omega) (by omega)⟩
  | case2 w i bits hin h31 ih => exact ih
  | case3 w i bits hc h0 =>
    intro pos idx hpos hsmall
    exact ok_match _ _ _ _ _ (by omega) (by omega) hsmall
  | case4 w i bits hc h0 => intros; trivial

theorem ok_binMid (multi : Bool) (p : Pers) (pos idx T : Nat) (hT : 0 < T) :
    okFrom (patch pos idx (binMid multi p)) T := by
  by_cases hf : p.flag = 0 <;> cases multi <;>
    simp only [binMid, hf, ne_eq, not_true, not_false_eq_true, decide_true, decide_false, Bool.and_false, Bool.false_and,
      Bool.and_true, Bool.false_eq_true, ite_false, ite_true, List.nil_append, List.cons_append, patch, List.append_nil,
      fix_stmt (show AND_K % 8 ≠ 5 by decide), fix_stmt (show TAX % 8 ≠ 5 by decide),
      fix_stmt (show LD_IMM % 8 ≠ 5 by decide), fix_stmt (show LSH_X % 8 ≠ 5 by decide),
      fix_stmt (show LD_ABS % 8 ≠ 5 by decide), fix_stmt (show RSH_K % 8 ≠ 5 by decide), okFrom, and_true]
  · exact ⟨ok_plain (by decide) (by simp <;> omega), ok_plain (by decide) (by simp <;> omega), ok_plain (by decide) (by simp <;> omega),
      ok_plain (by decide) (by simp <;> omega), ok_plain (by decide) (by simp <;> omega), ok_nr (by simp <;> omega), ok_rsh (by simp; omega)⟩
  · exact ⟨ok_plain (by decide) (by simp <;> omega), ok_plain (by decide) (by simp <;> omega), ok_plain (by decide) (by simp <;> omega),
      ok_plain (by decide) (by simp <;> omega), ok_plain (by decide) (by simp <;> omega), ok_nr (by simp <;> omega), ok_rsh (by simp; omega)⟩
  · exact ⟨ok_plain (by decide) (by simp <;> omega), ok_plain (by decide) (by simp <;> omega), ok_plain (by decide) (by simp <;> omega),
      ok_plain (by decide) (by simp <;> omega), ok_plain (by decide) (by simp <;> omega), ok_nr (by simp <;> omega),
      ok_plain (by decide) (by simp <;> omega), ok_rsh (by simp; omega)⟩
  · exact ⟨ok_plain (by decide) (by simp <;> omega), ok_plain (by decide) (by simp <;> omega), ok_plain (by decide) (by simp <;> omega),
      ok_plain (by decide) (by simp <;> omega), ok_plain (by decide) (by simp <;> omega), ok_plain (by decide) (by simp <;> omega), ok_nr (by simp <;> omega),
      ok_plain (by decide) (by simp <;> omega), ok_rsh (by simp; omega)⟩

theorem ok_binSection {multi : Bool} {p : Pers} {pos : Nat} {sec : List Insn} (h : binSection multi pos p = (sec, false))
    {R : Nat} (hR : multi = true → 0 < R) : okFrom sec R := by
  obtain ⟨hL, rfl⟩ := binSection_eq h
  have hpl : (binPrelude multi p).length = (linPrelude multi p).length + (binMid multi p).length := by
    rw [binPrelude_eq, List.length_append]
  generalize hW : pos + (binPrelude multi p).length = W at *
  generalize hLe : (binPrelude multi p).length + (matchLoop p W 0 0).length + 2 = L at *
  rw [okFrom_append, okFrom_append, okFrom_append]
  refine ⟨⟨⟨?_, ?_⟩, ?_⟩, ok_rets R⟩
  · cases multi
    · exact ok_entry1 p _ _ _ (by simp [rets]; omega)
    · rw [patch_length, patch_length, show (binMid true p).length + ((matchLoop p W 0 0).length + (rets.length + R)) =
        ((binMid true p).length + (matchLoop p W 0 0).length + 2) + R from by simp [rets]; omega]
      exact ok_entry p _ _ _ R (hR rfl) (by omega) (by omega) (by omega)
  · exact ok_binMid multi p _ _ _ (by simp [rets]; omega)
  · exact okFrom_mono (ok_matchLoop p W 0 0 (pos + L) _ (by omega) (by omega)) (by simp [rets])

theorem ok_secLoop (sec : Nat → Pers → List Insn × Bool) (limit : Option Nat) (ps : List Pers)
    (hsec : ∀ p pos s R, sec pos p = (s, false) → 0 < R → okFrom s R)
    (acc prog : List Insn) (h : secLoop sec limit ps acc = (prog, false)) {R : Nat} (hR : 0 < R)
    (out : List Insn) (hp : prog = acc ++ out) : okFrom out R := by
  induction ps generalizing acc out with
  | nil =>
    simp only [secLoop, Prod.mk.injEq, and_true] at h
    rw [← h] at hp
    have : out = [] := by simpa using hp
    subst this
    trivial
  | cons p ps ih =>
    unfold secLoop at h
    split at h
    · split at h
      · cases h
      · rename_i s hsp
        obtain ⟨o, ho⟩ := secLoop_append _ _ _ _ _ h
        have hout : out = s ++ o := by
          rw [ho, List.append_assoc] at hp
          exact (List.append_cancel_left hp).symm
        rw [hout, okFrom_append]
        exact ⟨hsec p _ s _ hsp (by omega), ih (acc ++ s) h o ho⟩
    · injection h with h _
      rw [h] at hp
      have : out = [] := by simpa using hp
      subst this
      trivial

theorem ok_generate (sec : Bool → Nat → Pers → List Insn × Bool) (limit : Option Nat) (ps : List Pers) (hne : ps ≠ [])
    (hsec : ∀ multi p pos s R, sec multi pos p = (s, false) → (multi = true → 0 < R) → okFrom s R)
    (hlast : ∀ multi p pos s, sec multi pos p = (s, false) → ∃ front, s = front ++ rets)
    (prog : List Insn) (h : generate sec limit ps = (prog, false)) :
    okFrom prog 0 ∧ ∃ ins, prog.getLast? = some ins ∧ ins.code = RET_K := by
  by_cases hps : 1 < ps.length
  · unfold generate at h
    simp only [hps, decide_true, ite_true, gt_iff_lt] at h
    split at h
    · cases h
    · rename_i pr hpr
      injection h with h _
      obtain ⟨o, ho⟩ := secLoop_append _ _ _ _ _ hpr
      subst h
      refine ⟨?_, stmt RET_K TRACE, by simp, rfl⟩
      rw [ho, List.append_assoc, List.cons_append, List.nil_append]
      refine ⟨ok_arch (by simp), ?_⟩
      rw [okFrom_append]
      exact ⟨ok_secLoop (sec true) limit _ (fun p pos s R h hR => hsec true p pos s R h (fun _ => hR)) _ pr hpr (by simp) o ho,
        ok_ret, trivial⟩
  · obtain ⟨p, rfl⟩ : ∃ p, ps = [p] := by
      match ps, hne, hps with
      | [p], _, _ => exact ⟨p, rfl⟩
      | _ :: _ :: _, _, h => simp at h
    have := generate_one _ _ _ _ h
    obtain ⟨f, hf⟩ := hlast _ _ _ _ this
    refine ⟨hsec _ _ _ _ 0 this (by intro h; cases h), stmt RET_K TRACE, ?_, rfl⟩
    rw [hf]; simp [rets]

/-- **C16.**  A program that strace installs passes the kernel's checks: every jump of it lands inside the
program and it ends with a return. -/
theorem installed_wellformed (ps : List Pers) (hne : ps ≠ []) (prog : List Insn)
    (h : chooseProg ps = some prog) : KernelOk prog := by
  obtain ⟨hc, hlen⟩ := chooseProg_cases h
  have key : okFrom prog 0 ∧ ∃ ins, prog.getLast? = some ins ∧ ins.code = RET_K := by
    rcases hc with hc | hc
    · refine ok_generate linSection none ps hne (fun multi p pos s R h hR => ok_linSection h hR) ?_ prog hc
      intro multi p pos s h
      obtain ⟨_, rfl⟩ := linSection_eq h
      exact ⟨_, rfl⟩
    · refine ok_generate binSection (some 4096) ps hne (fun multi p pos s R h hR => ok_binSection h hR) ?_ prog hc
      intro multi p pos s h
      obtain ⟨_, rfl⟩ := binSection_eq h
      exact ⟨_, rfl⟩
  refine ⟨?_, hlen, fun i ins hi => ?_, key.2⟩
  · obtain ⟨ins, hl, _⟩ := key.2
    cases prog with
    | nil => simp at hl
    | cons _ _ => simp
  · have := okFrom_get prog 0 key.1 i ins hi
    simpa using this

/-- A program that passes the kernel's checks always ends by returning a value. -/
theorem kernelOk_returns (prog : List Insn) (h : KernelOk prog) (d : Data) (a x : Nat) :
    ∃ r, run d prog a x = some r := by
  have gen : ∀ (n : Nat) (l : List Insn), l.length = n → 0 < l.length → okFrom l 0 → ∀ a x, ∃ r, run d l a x = some r := by
    intro n
    induction n using Nat.strongRecOn with
    | ind n ih =>
      intro l hn hpos hok a x
      match l, hpos with
      | ins :: is, _ =>
      have hdrop : ∀ k, k < is.length → ∀ a x, ∃ r, run d (is.drop k) a x = some r := by
        intro k hk a x
        have hsplit : okFrom (is.drop k) 0 := by
          have h2 := hok.2
          rw [← List.take_append_drop k is, okFrom_append] at h2
          exact h2.2
        exact ih (is.drop k).length (by simp at hn ⊢; omega) _ rfl (by simp; omega) hsplit a x
      have hnext : 0 < is.length → ∀ a x, ∃ r, run d is a x = some r := fun h a x => by
        simpa using hdrop 0 h a x
      have hok1 := hok.1
      rw [Nat.add_zero] at hok1
      obtain ⟨code, jt, jf, k⟩ := ins
      rcases hok1 with h | ⟨h, h'⟩ | ⟨h, h2, h'⟩ | ⟨h, h2, h'⟩ | ⟨h, h'⟩ | ⟨h, h1, h2, h3, h4⟩
      · exact ⟨k, by rw [run]; simp at h; simp [h]⟩
      · simp only [List.mem_cons, List.not_mem_nil, or_false] at h
        rcases h with h | h | h | h | h <;> subst h <;> rw [run] <;>
          simp [RET_K, LD_ABS, LD_IMM, AND_K, LSH_X, RSH_K, TAX, TXA] <;> exact hnext h' _ _
      · simp only at h; subst h; rw [run]
        simp [RET_K, LD_ABS, LD_IMM, AND_K, LSH_X, RSH_K]
        exact hnext h' _ _
      · simp only at h h2; subst h
        rcases h2 with h2 | h2 <;> subst h2 <;> rw [run] <;> simp [RET_K, LD_ABS, OFF_NR, OFF_ARCH] <;> exact hnext h' _ _
      · simp only at h h'; subst h; rw [run]
        simp [RET_K, LD_ABS, LD_IMM, AND_K, LSH_X, RSH_K, TAX, TXA, JA]
        exact hdrop k h' _ _
      · simp only [List.mem_cons, List.not_mem_nil, or_false] at h
        simp only at h1 h2
        have hj : ∀ c : Prop, [Decidable c] → (if c then jt else jf) < is.length := by
          intro c _; split <;> assumption
        rcases h with h | h | h <;> subst h <;> rw [run] <;>
          simp only [RET_K, LD_ABS, LD_IMM, AND_K, LSH_X, RSH_K, TAX, TXA, JA, JEQ_K, JGE_K, JSET_K] <;>
          exact hdrop _ (hj _) _ _
  have hok : okFrom prog 0 := by
    have := h.2.2.1
    clear h
    induction prog with
    | nil => trivial
    | cons x l ih =>
      refine ⟨by have := this 0 x rfl; simpa using this, ih fun i ins hi => ?_⟩
      have := this (i + 1) ins (by simpa using hi)
      rw [List.length_cons, show l.length + 1 - (i + 1) - 1 = l.length - i - 1 from by omega] at this
      exact this
  exact gen _ prog rfl h.1 hok a x

/-! ### the buffers are large enough -/

theorem cmpLoop_length (p : Pers) (hs : Sane p) (i : Nat) (lower : Option Nat) (hi : i ≤ p.n)
    (hl : ∀ l, lower = some l → l < i) :
    (cmpLoop p i lower).length ≤ p.n - i + (match lower with | none => 0 | some l => min 2 (i - l)) := by
  fun_induction cmpLoop p i lower with
  | case1 i hin ht ih =>
    have := ih (by omega) (by intro l h; injection h with h; omega)
    simp only at this ⊢
    omega
  | case2 i hin ht l ih =>
    have := hl l rfl
    have := ih (by omega) (by intro l' h; injection h with h; omega)
    simp only at this ⊢
    omega
  | case3 i hin ht ih =>
    have := ih (by omega) (by intro l' h; cases h)
    simp only at this ⊢
    omega
  | case4 i hin ht l ih =>
    have hl := hl l rfl
    have := ih (by omega) (by intro l' h; cases h)
    simp only [List.length_append] at this ⊢
    have hc : (syscallsCmp (l ||| p.flag) (i ||| p.flag)).length ≤ min 2 (i - l) := by
      unfold syscallsCmp
      rw [or_flag hs (by omega), or_flag hs (by omega)]
      split
      · simp; omega
      · simp; omega
    omega
  | case5 i hin => simp
  | case6 i hin l =>
    have hl := hl l rfl
    have : (syscallsCmp (l ||| p.flag) (p.n ||| p.flag)).length ≤ min 2 (i - l) := by
      unfold syscallsCmp
      rw [or_flag hs (by omega), or_flag hs (by omega)]
      split
      · simp; omega
      · simp; omega
    simp only
    omega

theorem matchLoop_length (p : Pers) (w i bits : Nat) :
    (matchLoop p w i bits).length ≤ 3 * ((p.n + 31) / 32 - i / 32) + (if p.n ≤ i then 3 else 0) := by
  have hm : ∀ b k, (syscallsMatch b k).length ≤ 3 := by
    intro b k; unfold syscallsMatch; split
    · simp
    · split <;> simp
  fun_induction matchLoop p w i bits with
  | case1 w i bits hin h31 ih =>
    rw [List.length_append]
    have := hm (addBit (p.traced i) bits i) (i / 32)
    by_cases h : p.n ≤ i + 1
    · rw [matchLoop, if_neg (by omega), if_neg (by omega)]
      simp only [List.length_nil]
      omega
    · rw [if_neg h] at ih
      omega
  | case2 w i bits hin h31 ih =>
    have hb : (i + 1) / 32 = i / 32 := by omega
    by_cases h : p.n ≤ i + 1
    · rw [matchLoop, if_neg (by omega)]
      split
      · have := hm (addBit (p.traced i) bits i) ((i + 1) / 32)
        omega
      · simp
    · rw [if_neg h] at ih
      omega
  | case3 w i bits hc h0 =>
    have := hm bits (i / 32)
    split <;> omega
  | case4 w i bits hc h0 => simp

theorem secLoop_length (sec : Nat → Pers → List Insn × Bool) (limit : Option Nat) (N : Nat) (ps : List Pers)
    (hsmall : ∀ p ∈ ps, ∀ pos s, sec pos p = (s, false) → s.length ≤ 255)
    (hN : ∀ p ∈ ps, ∀ pos, (sec pos p).1.length ≤ N) (acc : List Insn) :
    (secLoop sec limit ps acc).1.length ≤ acc.length + 255 * ps.length + N := by
  induction ps generalizing acc with
  | nil => simp [secLoop]
  | cons p ps ih =>
    unfold secLoop
    split
    · split
      · rename_i s hs
        have := hN p (by simp) acc.length
        rw [hs] at this
        simp only [List.length_append] at this ⊢
        omega
      · rename_i s hs
        have h1 := hsmall p (by simp) _ _ hs
        have h2 := ih (fun q hq => hsmall q (by simp [hq])) (fun q hq => hN q (by simp [hq])) (acc ++ s)
        simp only [List.length_append, List.length_cons] at h2 ⊢
        omega
    · simp only [List.length_cons]; omega

theorem linSection_small (multi : Bool) (p : Pers) (pos : Nat) (s : List Insn)
    (h : linSection multi pos p = (s, false)) : s.length ≤ 255 := by
  obtain ⟨hL, rfl⟩ := linSection_eq h
  simp only [List.length_append, patch_length, rets, List.length_cons, List.length_nil]
  omega

theorem binSection_small (multi : Bool) (p : Pers) (pos : Nat) (s : List Insn)
    (h : binSection multi pos p = (s, false)) : s.length ≤ 255 := by
  obtain ⟨hL, rfl⟩ := binSection_eq h
  have hpl : (binPrelude multi p).length = (linPrelude multi p).length + (binMid multi p).length := by
    rw [binPrelude_eq, List.length_append]
  simp only [List.length_append, patch_length, rets, List.length_cons, List.length_nil]
  omega

theorem linPrelude_length (multi : Bool) (p : Pers) : (linPrelude multi p).length ≤ 5 := by
  unfold linPrelude
  cases multi <;> by_cases h : p.flag = 0 <;> simp [h]

theorem binMid_length (multi : Bool) (p : Pers) : (binMid multi p).length ≤ 9 := by
  unfold binMid
  cases multi <;> by_cases h : p.flag = 0 <;> simp [h]

theorem generate_length (sec : Bool → Nat → Pers → List Insn × Bool) (limit : Option Nat) (N : Nat) (ps : List Pers)
    (hsmall : ∀ multi p pos s, sec multi pos p = (s, false) → s.length ≤ 255)
    (hN : ∀ p ∈ ps, ∀ multi pos, (sec multi pos p).1.length ≤ N) :
    (generate sec limit ps).1.length ≤ 2 + 255 * ps.length + N := by
  unfold generate
  dsimp only
  have := secLoop_length (sec (decide (ps.length > 1))) limit N ps.reverse (fun p _ pos s h => hsmall _ p pos s h)
    (fun p hp pos => hN p (by simpa using hp) _ pos) (if (decide (ps.length > 1)) = true then [stmt LD_ABS OFF_ARCH] else [])
  rw [List.length_reverse] at this
  have h1 : ∀ (c : Bool) (i : Insn), (if c = true then [i] else []).length ≤ 1 := by intro c i; cases c <;> simp
  have h2 := h1 (decide (ps.length > 1)) (stmt LD_ABS OFF_ARCH)
  have h3 := h1 (decide (ps.length > 1)) (stmt RET_K TRACE)
  split
  · rename_i pr hpr
    rw [hpr] at this
    simp only at this ⊢
    omega
  · rename_i pr hpr
    rw [hpr] at this
    simp only [List.length_append] at this ⊢
    omega

/-- With at most three personalities of at most 7400 calls each, the generators stay within the static
buffer of 8192 instructions, whatever is traced and even when the result is given up later; the 16-bit
position does not wrap. -/
theorem generators_fit (ps : List Pers) (h3 : ps.length ≤ 3) (hs : ∀ p ∈ ps, Sane p) (hn : ∀ p ∈ ps, p.n ≤ 7400) :
    (linearGen ps).1.length ≤ 8192 ∧ (binaryGen ps).1.length ≤ 8192 := by
  constructor
  · have := generate_length linSection none 7408 ps (fun m p pos s h => linSection_small m p pos s h) (by
      intro p hp multi pos
      have hl := cmpLoop_length p (hs p hp) 0 none (by omega) (by intro l h; cases h)
      have := linPrelude_length multi p
      have := hn p hp
      simp only at hl
      unfold linSection
      dsimp only
      split <;> simp only [List.length_append, patch_length, List.length_cons, List.length_nil] <;> omega)
    unfold linearGen; omega
  · have := generate_length binSection (some 4096) 1000 ps (fun m p pos s h => binSection_small m p pos s h) (by
      intro p hp multi pos
      have hl := matchLoop_length p (pos + (binPrelude multi p).length) 0 0
      have h1 := linPrelude_length multi p
      have h2 := binMid_length multi p
      have hpl : (binPrelude multi p).length = (linPrelude multi p).length + (binMid multi p).length := by
        rw [binPrelude_eq, List.length_append]
      have := hn p hp
      have hite : (if p.n ≤ 0 then 3 else 0) ≤ 3 := by split <;> omega
      unfold binSection
      dsimp only
      split <;> simp only [List.length_append, patch_length, List.length_cons, List.length_nil] <;> omega)
    unfold binaryGen; omega

/-! ### concrete cases -/

/-- three personalities like those of x86_64, with small tables -/
def demo : List Pers :=
  [⟨0xc000003e, 0, 70, fun n => n % 2 == 1⟩, ⟨0x40000003, 0, 40, fun n => n == 3 || n == 4⟩,
   ⟨0xc000003e, 0x40000000, 36, fun n => n == 0⟩]

theorem demo_sane : ∀ p ∈ demo, Sane p := by
  intro p hp
  simp only [demo, List.mem_cons, List.not_mem_nil, or_false] at hp
  rcases hp with rfl | rfl | rfl
  · exact ⟨by decide, by decide, Or.inl rfl⟩
  · exact ⟨by decide, by decide, Or.inl rfl⟩
  · exact ⟨by decide, by decide, Or.inr ⟨30, by decide, by decide, by decide, by decide⟩⟩

example : (chooseProg demo).isSome = true := by decide +kernel
example : (linearGen demo).2 = false ∧ (binaryGen demo).2 = false := by decide +kernel
example : (linearGen demo).1.length = 58 ∧ (binaryGen demo).1.length = 57 := by decide +kernel
example : Governs demo ⟨0xc000003e, 0x40000000⟩ ⟨0xc000003e, 0x40000000, 36, fun n => n == 0⟩ :=
  ⟨demo.take 2, [], rfl, rfl, by decide, by simp⟩
example : (chooseProg demo).map (fun p => run ⟨0xc000003e, 0x40000000⟩ p 0 0) = some (some TRACE) := by decide +kernel
example : (chooseProg demo).map (fun p => run ⟨0xc000003e, 0x40000001⟩ p 0 0) = some (some ALLOW) := by decide +kernel
example : (chooseProg demo).map (fun p => run ⟨0xc000003e, 69⟩ p 0 0) = some (some TRACE) := by decide +kernel
example : (chooseProg demo).map (fun p => run ⟨0x40000003, 5⟩ p 0 0) = some (some ALLOW) := by decide +kernel

/-! ### C60: numbers beyond the table -/

/-- The programs of the first generator stop the tracee at every number beyond the table. -/
theorem beyond_table_traced_partial (ps : List Pers) (hps : 1 < ps.length) (hs : ∀ p ∈ ps, Sane p)
    (prog : List Insn) (h : linearGen ps = (prog, false)) (hlen : prog.length ≤ 4096) (d : Data) (p : Pers)
    (hg : Governs ps d p) (hn : p.n ≤ d.nr - p.flag) : run d prog 0 0 = some TRACE := by
  rw [(linear_selects ps hps hs prog h hlen d 0 0).1 p hg, if_neg (by omega)]

/-- **Finding.**  Whether a number beyond the table stops the tracee depends on which generator happened to
give the shorter program: here the program installed lets number 300 through although the other one stops
at it. -/
theorem beyond_table_let_through :
    ∃ prog, chooseProg demo = some prog ∧ run ⟨0xc000003e, 300⟩ prog 0 0 = some ALLOW ∧
      run ⟨0xc000003e, 300⟩ (linearGen demo).1 0 0 = some TRACE ∧
      Governs demo ⟨0xc000003e, 300⟩ ⟨0xc000003e, 0, 70, fun n => n % 2 == 1⟩ := by
  refine ⟨(binaryGen demo).1, by decide +kernel, by decide +kernel, by decide +kernel, [], demo.tail, rfl, rfl, by decide, ?_⟩
  intro q hq
  simp only [demo, List.tail_cons, List.mem_cons, List.not_mem_nil, or_false] at hq
  rcases hq with rfl | rfl <;> decide

end Strace.Seccomp
