import Verif.Ioc.Spec
/-! # Proofs for C115 -/
namespace Strace.Ioc

/-- the two encodings -/
def Known (a : Abi) : Prop := a = generic ∨ a = three

theorem fields_of (a : Abi) (h : Known a) (code : Nat) (hc : code < 2 ^ 32) :
    Fields a code (dir a code) (type code) (nr code) (size a code) ∧ dir a code < 2 ^ a.dirBits := by
  rcases h with rfl | rfl <;>
  · simp only [Fields, ioc, dir, type, nr, size, generic, three] at *
    omega

theorem fields_eq (a : Abi) (h : Known a) (code d t n s : Nat) (hc : code < 2 ^ 32) (hf : Fields a code d t n s) :
    d = dir a code ∧ t = type code ∧ n = nr code ∧ s = size a code := by
  rcases h with rfl | rfl <;>
  · simp only [Fields, ioc, dir, type, nr, size, generic, three] at *
    omega

theorem dir_arg (a : Abi) (h : Known a) (d : Nat) (hd : d < 2 ^ a.dirBits) : argValue a (dirArg a d) = d := by
  rcases h with rfl | rfl
  · have : ∀ d : Fin 4, argValue generic (dirArg generic d.1) = d.1 := by decide
    exact this ⟨d, hd⟩
  · have : ∀ d : Fin 8, argValue three (dirArg three d.1) = d.1 := by decide
    exact this ⟨d, hd⟩

theorem ioc_inj (a : Abi) (h : Known a) (d t n s d' t' n' s' : Nat) (hn : n < 256) (ht : t < 256) (hs : s < 2 ^ a.sizeBits)
    (hn' : n' < 256) (ht' : t' < 256) (hs' : s' < 2 ^ a.sizeBits) :
    ioc a d t n s = ioc a d' t' n' s' ↔ d = d' ∧ t = t' ∧ n = n' ∧ s = s' := by
  rcases h with rfl | rfl <;>
  · simp only [ioc, generic, three] at *
    omega

theorem print_code (a : Abi) (h : Known a) (table : List (String × Nat)) (code : Nat) (hc : code < 2 ^ 32) :
    HasValue a table (printCode a code) code := by
  have hf := fields_of a h code hc
  have hs : sizeMacro a "_IOC" = none := rfl
  have hd := dir_arg a h _ hf.2
  simp only [HasValue, printCode, List.map, macroValue, hs, if_true, hd]
  simp only [argValue]
  rw [← hf.1.1]

/-- the symbols of the table, and the parts of a request that has no name, have its value -/
theorem exprs_iff (a : Abi) (h : Known a) (table : List (String × Nat)) (f : Finfo) (code : Nat) (hc : code < 2 ^ 32) :
    (∀ e ∈ exprs a table f code, HasValue a table e code) ↔
      ∀ e, (commandNumber a f code).expr = some e → HasValue a table e code := by
  have hsym : ∀ e ∈ symbols table code, HasValue a table e code := by
    intro e he
    simp only [symbols, List.mem_map, List.mem_filter, beq_iff_eq] at he
    obtain ⟨⟨s, v⟩, ⟨h1, h2⟩, rfl⟩ := he
    simp only at h2
    subst h2
    simp [HasValue, h1]
  unfold exprs
  simp only
  cases hn : (commandNumber a f code).expr with
  | none =>
    split
    · simp
    · split
      · simpa using hsym
      · simp [print_code a h table code hc]
  | some x =>
    split
    · simp
    · split
      · constructor
        · intro hh e he; simp at he; subst he; exact hh x (by simp)
        · intro hh e he
          simp only [Option.toList, List.mem_append, List.mem_singleton] at he
          rcases he with rfl | he
          · exact hh e rfl
          · exact hsym e he
      · simp

/-- nothing is printed twice or not at all: there is an expression -/
theorem exprs_some (a : Abi) (table : List (String × Nat)) (f : Finfo) (code : Nat) : exprs a table f code ≠ [] := by
  unfold exprs
  simp only
  split
  · rename_i hst
    have : ∃ e, (commandNumber a f code).expr = some e := by
      simp only [commandNumber, handled] at hst ⊢
      split at hst <;> simp_all
      split at hst <;> simp_all
      split at hst <;> simp_all
      split at hst <;> simp_all
      split at hst <;> simp_all
      · simp only [termNumber] at hst ⊢
        split at hst
        · split at hst
          · split at hst
            · simp_all
            · simp at hst
          · simp at hst
        · simp at hst
      · split at hst <;> simp_all
        split at hst <;> simp_all
        split at hst <;> simp_all
    obtain ⟨e, he⟩ := this
    simp [he]
  · split
    · rename_i hs
      cases (commandNumber a f code).expr <;> simp_all
    · split <;> simp

theorem one_size (a : Abi) (table : List (String × Nat)) (code : Nat) (name : String) (d t n : Nat)
    (hm : sizeMacro a name = some (d, t, n)) :
    HasValue a table (ofSize a code name) code ↔ ioc a d t n (size a code) = code := by
  simp [HasValue, ofSize, argValue, macroValue, hm]

theorem evdev_sizes (a : Abi) (n : Nat) (s : String) (h : evdevName n = some s) : sizeMacro a s = some (a.read, 0x45, n) := by
  unfold evdevName at h
  split at h <;> simp at h <;> subst h <;> rfl

theorem hid_both (a : Abi) (n : Nat) (s : String) (h : hidBoth n = some s) : sizeMacro a s = some (a.read + a.write, 0x48, n) := by
  unfold hidBoth at h
  split at h <;> simp at h <;> subst h <;> rfl

theorem hid_read (a : Abi) (n : Nat) (s : String) (h : hidRead n = some s) (h6 : n ≠ 6) :
    sizeMacro a s = some (a.read, 0x48, n) := by
  unfold hidRead at h
  split at h <;> simp at h <;> first | (subst h; rfl) | (exact absurd rfl h6)

theorem read_write (a : Abi) (h : Known a) : a.read ≠ a.write ∧ a.read ≠ a.read + a.write ∧ a.write ≠ a.read + a.write ∧
    24 < 2 ^ a.sizeBits ∧ a.read ≠ 0 ∧ a.write ≠ 0 := by
  rcases h with rfl | rfl <;> decide

theorem spi_lt (a : Abi) (n : Nat) : spiSize a n < 2 ^ a.sizeBits := by
  unfold spiSize
  split
  · assumption
  · exact Nat.two_pow_pos _

theorem spi_fix (a : Abi) (n : Nat) : n = spiSize a n ↔ n = 0 := by
  unfold spiSize
  split <;> omega

theorem number_iff (a : Abi) (h : Known a) (table : List (String × Nat)) (f : Finfo) (code : Nat) (hc : code < 2 ^ 32) :
    (∀ e, (commandNumber a f code).expr = some e → HasValue a table e code) ↔
      ¬ Wrong a (dir a code) (type code) (nr code) (size a code) := by
  obtain ⟨⟨hcode, hn, ht, hs⟩, hd⟩ := fields_of a h code hc
  obtain ⟨hrw, hrb, hwb, h24, hr0, hw0⟩ := read_write a h
  have key : ∀ d' t' n' s', n' < 256 → t' < 256 → s' < 2 ^ a.sizeBits →
      (ioc a d' t' n' s' = code ↔ d' = dir a code ∧ t' = type code ∧ n' = nr code ∧ s' = size a code) := by
    intro d' t' n' s' hn' ht' hs'
    have := ioc_inj a h d' t' n' s' (dir a code) (type code) (nr code) (size a code) hn' ht' hs' hn ht hs
    rw [← hcode] at this
    exact this
  by_cases t1 : type code = 0x21
  · have : (commandNumber a f code).expr =
        if code = wrongDir a then some (.sym "SECCOMP_IOCTL_NOTIF_ID_VALID_WRONG_DIR") else none := by
      simp [commandNumber, handled, t1]
    rw [this]
    by_cases hw : code = wrongDir a
    · have hv : wrongDir a = ioc a a.read 0x21 2 8 := by simp [wrongDir, ioc]
      simp [← hw, HasValue, known, hv, Wrong, t1]
      simp [hw, hv]
    · simp [hw, Wrong, t1]
  by_cases t2 : type code = 0x45
  · have : (commandNumber a f code).expr = evdevNumber a code := by simp [commandNumber, handled, t2]
    rw [this]
    unfold evdevNumber
    by_cases c1 : dir a code = a.write ∧ nr code ≥ 0xc0 ∧ nr code ≤ 0xc0 + 0x3f
    · rw [if_pos c1]
      have hm : sizeMacro a "EVIOCSABS" = none := rfl
      have hk := key a.write 0x45 (0xc0 + (nr code - 0xc0)) 24 (by omega) (by omega) h24
      simp only [Option.some.injEq, forall_eq', HasValue, List.map, argValue, macroValue, hm]
      simp only [String.reduceEq, if_false, if_true, Option.some.injEq]
      rw [hk]
      have hr : dir a code ≠ a.read := by rw [c1.1]; exact hrw.symm
      simp [Wrong, t2, c1.1, c1.2.1, hrw.symm]
      omega
    · rw [if_neg c1]
      by_cases c2 : dir a code = a.read
      · rw [if_neg (by simpa using c2)]
        have hnw : dir a code ≠ a.write := by rw [c2]; exact hrw
        by_cases c3 : nr code ≥ 0x20 ∧ nr code ≤ 0x20 + 0x1f
        · rw [if_pos c3]
          have hm : sizeMacro a "EVIOCGBIT" = none := rfl
          have harg : argValue a (if nr code = 0x20 then .num 0 else .named "evdev_ev" (nr code - 0x20)) = nr code - 0x20 := by
            split
            · rename_i he; simp [argValue, he]
            · rfl
          simp only [Option.some.injEq, forall_eq', HasValue, List.map, macroValue, hm, harg]
          simp only [String.reduceEq, if_false, if_true, Option.some.injEq, argValue]
          rw [key a.read 0x45 (0x20 + (nr code - 0x20)) _ (by omega) (by omega) hs]
          simp [Wrong, t2, c2, hrw]
          omega
        · rw [if_neg c3]
          by_cases c4 : nr code ≥ 0x40 ∧ nr code ≤ 0x40 + 0x3f
          · rw [if_pos c4]
            have hm : sizeMacro a "EVIOCGABS" = none := rfl
            simp only [Option.some.injEq, forall_eq', HasValue, List.map, argValue, macroValue, hm]
            simp only [String.reduceEq, if_false, if_true, Option.some.injEq]
            rw [key a.read 0x45 (0x40 + (nr code - 0x40)) 24 (by omega) (by omega) h24]
            simp [Wrong, t2, c2, hrw]
            omega
          · rw [if_neg c4]
            have hnot : ¬ Wrong a (dir a code) (type code) (nr code) (size a code) := by
              simp [Wrong, t2, c2, hrw]; omega
            simp only [hnot, not_false_eq_true, iff_true]
            intro e he
            cases hnm : evdevName (nr code) with
            | none => rw [hnm] at he; simp at he
            | some s =>
              rw [hnm] at he; simp at he; subst he
              rw [one_size a table code s _ _ _ (evdev_sizes a _ s hnm), key _ _ _ _ hn (by omega) hs]
              simp [c2, t2]
      · rw [if_pos (by simpa using c2)]
        simp [Wrong, t2, c2]
        intro hw h1
        exact absurd ⟨hw, h1, by omega⟩ c1
  by_cases t3 : type code = 0x48
  · have : (commandNumber a f code).expr = hidNumber a code := by simp [commandNumber, handled, t3]
    rw [this]
    unfold hidNumber
    by_cases c1 : dir a code = a.read
    · rw [if_pos c1]
      by_cases h6 : nr code = 6
      · have e1 : hidRead (nr code) = some "HIDIOCSFEATURE" := by rw [h6]; rfl
        rw [e1]
        simp only [Option.map_some, Option.some.injEq, forall_eq']
        rw [one_size a table code _ (a.read + a.write) 0x48 6 rfl, key _ _ _ _ (by omega) (by omega) hs]
        simp [Wrong, t3, c1, h6, hw0]
      · have hnot : ¬ Wrong a (dir a code) (type code) (nr code) (size a code) := by simp [Wrong, t3, h6]
        simp only [hnot, not_false_eq_true, iff_true]
        intro e he
        cases hnm : hidRead (nr code) with
        | none => rw [hnm] at he; simp at he
        | some s =>
          rw [hnm] at he; simp at he; subst he
          rw [one_size a table code s _ _ _ (hid_read a _ s hnm h6), key _ _ _ _ hn (by omega) hs]
          simp [c1, t3]
    · rw [if_neg c1]
      have hnot : ¬ Wrong a (dir a code) (type code) (nr code) (size a code) := by simp [Wrong, t3, c1]
      simp only [hnot, not_false_eq_true, iff_true]
      by_cases c2 : dir a code = a.read + a.write
      · rw [if_pos c2]
        intro e he
        cases hnm : hidBoth (nr code) with
        | none => rw [hnm] at he; simp at he
        | some s =>
          rw [hnm] at he; simp at he; subst he
          rw [one_size a table code s _ _ _ (hid_both a _ s hnm), key _ _ _ _ hn (by omega) hs]
          simp [c2, t3]
      · rw [if_neg c2]; simp
  by_cases t4 : type code = 0x4d
  · have : (commandNumber a f code).expr = mixerNumber a code := by simp [commandNumber, handled, t4]
    rw [this]
    unfold mixerNumber
    by_cases c1 : dir a code = a.write
    · rw [if_pos c1]
      have hm : sizeMacro a "MIXER_WRITE" = none := rfl
      simp only [Option.some.injEq, forall_eq', HasValue, List.map, argValue, macroValue, hm]
      simp only [String.reduceEq, if_false, if_true, Option.some.injEq]
      rw [key _ _ _ _ hn (by omega) (by omega)]
      simp [Wrong, t4, c1, hr0]
    · rw [if_neg c1]
      by_cases c2 : dir a code = a.read
      · rw [if_pos c2]
        have hm : sizeMacro a "MIXER_READ" = none := rfl
        simp only [Option.some.injEq, forall_eq', HasValue, List.map, argValue, macroValue, hm]
        simp only [String.reduceEq, if_false, if_true, Option.some.injEq]
        rw [key _ _ _ _ hn (by omega) (by omega)]
        simp [Wrong, t4, c2, hrw]
        exact eq_comm
      · rw [if_neg c2]; simp [Wrong, t4, c1, c2]
  by_cases t5 : type code = 0x54
  · have : (commandNumber a f code).expr = (termNumber f code).expr := by simp [commandNumber, t5]
    rw [this]
    have hnot : ¬ Wrong a (dir a code) (type code) (nr code) (size a code) := by simp [Wrong, t5]
    simp only [hnot, not_false_eq_true, iff_true]
    intro e he
    unfold termNumber at he
    split at he
    · split at he
      · split at he
        · rename_i s hts
          simp at he
          subst he
          unfold termCmds at hts
          split at hts <;> simp at hts <;> subst hts <;> simp [HasValue, known]
        · simp at he
      · simp at he
    · simp at he
  by_cases t6 : type code = 0x55
  · have : (commandNumber a f code).expr =
        if dir a code = a.read ∧ nr code = 0x2c then some (ofSize a code "UI_GET_SYSNAME") else none := by
      simp [commandNumber, handled, t6]
    rw [this]
    have hnot : ¬ Wrong a (dir a code) (type code) (nr code) (size a code) := by simp [Wrong, t6]
    simp only [hnot, not_false_eq_true, iff_true]
    split
    · rename_i c
      simp only [Option.some.injEq, forall_eq']
      rw [one_size a table code _ a.read 0x55 44 rfl, key _ _ _ _ (by omega) (by omega) hs]
      simp [c.1, c.2, t6]
    · simp
  by_cases t7 : type code = 0x6a
  · have : (commandNumber a f code).expr =
        if dir a code = a.read ∧ nr code = 0x13 then some (ofSize a code "JSIOCGNAME") else none := by
      simp [commandNumber, handled, t7]
    rw [this]
    have hnot : ¬ Wrong a (dir a code) (type code) (nr code) (size a code) := by simp [Wrong, t7]
    simp only [hnot, not_false_eq_true, iff_true]
    split
    · rename_i c
      simp only [Option.some.injEq, forall_eq']
      rw [one_size a table code _ a.read 0x6a 0x13 rfl, key _ _ _ _ (by omega) (by omega) hs]
      simp [c.1, c.2, t7]
    · simp
  by_cases t8 : type code = 0x6b
  · have : (commandNumber a f code).expr =
        if dir a code = a.write ∧ nr code = 0 then some (ofSize a code "SPI_IOC_MESSAGE") else none := by
      simp [commandNumber, handled, t8]
    rw [this]
    split
    · rename_i c
      have hm : sizeMacro a "SPI_IOC_MESSAGE" = none := rfl
      simp only [Option.some.injEq, forall_eq', HasValue, ofSize, List.map, argValue, macroValue, hm]
      simp only [String.reduceEq, if_false, if_true, Option.some.injEq]
      rw [key _ _ _ _ (by omega) (by omega) (spi_lt a _)]
      have := spi_fix a (size a code)
      simp [Wrong, t8, c.1, c.2]
      rw [eq_comm, this]
    · rename_i c
      simp [Wrong, t8]
      intro h1 h2
      exact absurd ⟨h1, h2⟩ c
  · have : (commandNumber a f code).expr = none := by
      simp [commandNumber, handled, t1, t2, t3, t4, t5, t6, t7, t8]
    rw [this]
    simp [Wrong, t2, t3, t4, t8]

/-- **C115.** Every expression shown for a request has the value of the request, just when the request is not one of those listed in
`Wrong`; whatever the table of symbols and the descriptor are. -/
theorem values_iff_partial (a : Abi) (h : Known a) (table : List (String × Nat)) (fd : Finfo) (st : Style) (hst : st ≠ .raw)
    (arg d t n s : Nat) (hf : Fields a (arg % 2 ^ 32) d t n s) :
    (∀ e ∈ (request a table fd st arg).exprs, HasValue a table e (arg % 2 ^ 32)) ↔ ¬ Wrong a d t n s := by
  have hc : arg % 2 ^ 32 < 2 ^ 32 := Nat.mod_lt _ (by decide)
  obtain ⟨rfl, rfl, rfl, rfl⟩ := fields_eq a h _ d t n s hc hf
  simp only [request, hst, if_false]
  rw [exprs_iff a h table _ _ hc, number_iff a h table _ _ hc]

/-- **C115.** Something is always shown: the number unless the style is the short one, expressions unless it is raw. -/
theorem shown_always (a : Abi) (table : List (String × Nat)) (fd : Finfo) (st : Style) (arg : Nat) :
    (st ≠ .abbrv → (request a table fd st arg).number = some (arg % 2 ^ 32)) ∧
    (st ≠ .raw → (request a table fd st arg).exprs ≠ []) ∧
    (st = .abbrv → (request a table fd st arg).number = none) := by
  refine ⟨fun h => by simp [request, h], fun h => ?_, fun h => by simp [request, h]⟩
  simp only [request, h, if_false]
  exact exprs_some _ _ _ _

/-- every symbol that the table has for the request is shown, unless the descriptor tells which one is meant -/
theorem symbols_shown (a : Abi) (table : List (String × Nat)) (fd : Finfo) (st : Style) (hst : st ≠ .raw) (arg : Nat) (x : String)
    (hx : (x, arg % 2 ^ 32) ∈ table)
    (hno : ¬ ∃ m, fd = .chr m ∧ ((3 ≤ m ∧ m ≤ 5) ∨ (136 ≤ m ∧ m ≤ 143)) ∧ 0x5401 ≤ arg % 2 ^ 32 ∧ arg % 2 ^ 32 ≤ 0x5408) :
    .sym x ∈ (request a table fd st arg).exprs := by
  have hmem : Expr.sym x ∈ symbols table (arg % 2 ^ 32) := by
    simp only [symbols, List.mem_map, List.mem_filter, beq_iff_eq]
    exact ⟨(x, arg % 2 ^ 32), ⟨hx, rfl⟩, rfl⟩
  have hne : symbols table (arg % 2 ^ 32) ≠ [] := by intro he; rw [he] at hmem; simp at hmem
  simp only [request, hst, if_false]
  unfold exprs
  have hstop : (commandNumber a (if 0x5401 ≤ arg % 2 ^ 32 ∧ arg % 2 ^ 32 ≤ 0x5408 then fd else .unknown) (arg % 2 ^ 32)).stop = false := by
    have hterm : (termNumber (if 0x5401 ≤ arg % 2 ^ 32 ∧ arg % 2 ^ 32 ≤ 0x5408 then fd else .unknown) (arg % 2 ^ 32)).stop = false := by
      by_cases c : 0x5401 ≤ arg % 2 ^ 32 ∧ arg % 2 ^ 32 ≤ 0x5408
      · rw [if_pos c]
        cases fd with
        | unknown => rfl
        | other => rfl
        | chr m =>
          have : ¬ ((3 ≤ m ∧ m ≤ 5) ∨ (136 ≤ m ∧ m ≤ 143)) := fun hm => hno ⟨m, rfl, hm, c.1, c.2⟩
          simp [termNumber, this]
      · rw [if_neg c]; rfl
    revert hterm
    generalize (if 0x5401 ≤ arg % 2 ^ 32 ∧ arg % 2 ^ 32 ≤ 0x5408 then fd else Finfo.unknown) = f
    intro hterm
    unfold commandNumber handled
    repeat' split
    all_goals first | rfl | exact hterm
  simp only [hstop, Bool.false_eq_true, if_false, ne_eq, hne, not_false_eq_true, if_true]
  simp [hmem]

/-- for a terminal, a request that sound devices also have is shown by the name of the terminal's request only -/
theorem terminal_only (a : Abi) (table : List (String × Nat)) (m : Nat) (hm : (3 ≤ m ∧ m ≤ 5) ∨ (136 ≤ m ∧ m ≤ 143)) (st : Style)
    (hst : st ≠ .raw) (arg : Nat) (h1 : 0x5401 ≤ arg % 2 ^ 32) (h2 : arg % 2 ^ 32 ≤ 0x5408) :
    ∃ x, (request a table (.chr m) st arg).exprs = [.sym x] ∧ (x, arg % 2 ^ 32) ∈ known a ∧
      x ∈ ["TCGETS", "TCSETS", "TCSETSW", "TCSETSF", "TCGETA", "TCSETA", "TCSETAW", "TCSETAF"] := by
  simp only [request, hst, if_false, h1, h2, and_self, if_true]
  generalize arg % 2 ^ 32 = c at h1 h2
  have ht : type c = 0x54 := by unfold type; omega
  have hn : commandNumber a (.chr m) c = termNumber (.chr m) c := by simp [commandNumber, ht]
  have : ∀ x, termCmds c = some x → (termNumber (.chr m) c) = ⟨some (.sym x), true⟩ := by
    intro x hx; simp [termNumber, hm, hx]
  have hcases : c = 0x5401 ∨ c = 0x5402 ∨ c = 0x5403 ∨ c = 0x5404 ∨ c = 0x5405 ∨ c = 0x5406 ∨ c = 0x5407 ∨ c = 0x5408 := by omega
  have go : ∀ x, termCmds c = some x → exprs a table (.chr m) c = [.sym x] := by
    intro x hx
    simp [exprs, hn, this x hx]
  rcases hcases with rfl | rfl | rfl | rfl | rfl | rfl | rfl | rfl <;>
    exact ⟨_, go _ rfl, by simp [known], by simp⟩

/-! ## the claim is false of the code -/

/-- HIDIOCGNAME(256) is shown as HIDIOCSFEATURE(256) -/
theorem hid_name : (request generic [] .unknown .abbrv 0x81004806).exprs = [.macro "HIDIOCSFEATURE" [.num 256]] ∧
    macroValue generic "HIDIOCGNAME" [256] = some 0x81004806 ∧ macroValue generic "HIDIOCSFEATURE" [256] = some 0xc1004806 := by
  decide

/-- SPI_IOC_MESSAGE(1) is shown as SPI_IOC_MESSAGE(32) -/
theorem spi_message : (request generic [] .unknown .abbrv 0x40206b00).exprs = [.macro "SPI_IOC_MESSAGE" [.num 32]] ∧
    macroValue generic "SPI_IOC_MESSAGE" [1] = some 0x40206b00 ∧ macroValue generic "SPI_IOC_MESSAGE" [32] = some 0x44006b00 := by
  decide

/-- MEMERASE is shown as MIXER_WRITE(2) or MEMERASE, while MIXER_WRITE(2) is not shown as such -/
theorem mixer_write : (request generic [("MEMERASE", 0x40084d02)] .unknown .abbrv 0x40084d02).exprs =
      [.macro "MIXER_WRITE" [.num 2], .sym "MEMERASE"] ∧
    macroValue generic "MIXER_WRITE" [2] = some 0xc0044d02 ∧
    (request generic [] .unknown .abbrv 0xc0044d02).exprs =
      [.macro "_IOC" [.flags ["_IOC_READ", "_IOC_WRITE"] 0, .num 0x4d, .num 2, .num 4]] := by
  decide

/-- two requests that differ in size only are shown as the same EVIOCGABS -/
theorem abs_size : (request generic [] .unknown .abbrv 0x80184540).exprs = (request generic [] .unknown .abbrv 0x80144540).exprs := by
  decide

/-! ## instances -/

example : Known generic ∧ Fields generic 0x80ff4506 2 0x45 6 0xff ∧ ¬ Wrong generic 2 0x45 6 0xff := by
  refine ⟨Or.inl rfl, by unfold Fields; decide, by unfold Wrong; decide⟩
example : (request generic [] .unknown .verbose 0x80ff4506) = ⟨some 0x80ff4506, [.macro "EVIOCGNAME" [.num 255]]⟩ := by decide
example : (request generic [("TCSETS", 0x5402), ("SNDCTL_TMR_START", 0x5402)] (.chr 136) .abbrv 0x5402).exprs = [.sym "TCSETS"] := by decide
example : (request generic [("TCSETS", 0x5402), ("SNDCTL_TMR_START", 0x5402)] (.chr 14) .abbrv 0x5402).exprs =
    [.sym "TCSETS", .sym "SNDCTL_TMR_START"] := by decide
example : (request three [] .unknown .abbrv 0x20000000).exprs = [.macro "_IOC" [.flags ["_IOC_NONE"] 0, .num 0, .num 0, .num 0]] := by decide

end Strace.Ioc
