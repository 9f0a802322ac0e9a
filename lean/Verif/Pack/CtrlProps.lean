import Verif.Pack.Ctrl
import Verif.Pack.Props
/-
C82 for the control words of prctl: whatever is printed, as an argument or as an explanation after a
result, reads as the word.
-/
namespace Strace.Pack
open Strace.Xlat

variable {names : String → Option (BitVec 64)}

set_option maxRecDepth 4000

theorem reads_sflags {d : List Entry} {flags : BitVec 64} (hn : Names names [⟨d, .normal⟩]) (hf : flags ≠ 0) :
    ∃ l, sprintflags [] d flags none .abbrev false = some l ∧ Reads names (ps l) flags := by
  obtain ⟨L, r, hd, he⟩ := sprintflags_or [] d flags none .abbrev (by simp) hf
  refine ⟨_, he, ?_⟩
  by_cases hL : L = []
  · simp only [hL, if_true, Option.toList, List.nil_append]
    exact (atom_num flags).reads
  · simp only [hL, if_false, Option.toList, List.nil_append]
    rw [if_neg (by simp)]
    have := reads_symbolic (r := r) hL (listed_named hn (by simpa [allEntries] using hd))
    rwa [hd.total] at this

theorem vl_bits (v : BitVec 64) : (v &&& ~~~0xffff#64) ||| (v &&& 0xffff#64) = v := by bits

theorem tagged_bits (v : BitVec 64) : (v &&& 1#64) ||| (v &&& 6#64) ||| (((v &&& 0x7fff8#64) >>> 3) <<< 3) |||
    (v &&& ~~~(1#64 ||| 6#64 ||| 0x7fff8#64)) = v := by bits

theorem riscv_bits (v : BitVec 64) : (v &&& 3#64) ||| (((v &&& 0xc#64) >>> 2) <<< 2 ||| (v &&& 16#64)) |||
    (v &&& ~~~0x1f#64) = v := by bits

/-- the vector length and its flags; as an explanation nothing is given if the number says it all -/
theorem vl_val (x : String) (st : Verb) (arg : BitVec 64) (aux : Bool) (hn : Names names [vlFlags x]) :
    (vlVal x st arg aux = none ↔ aux = true ∧ (st = .raw ∨ arg.toNat < 0x10000)) ∧
    ∀ l, vlVal x st arg aux = some l → valueOf names l = some arg := by
  have hz : arg &&& ~~~0xffff#64 = 0 ↔ arg.toNat < 0x10000 := by
    constructor
    · intro h
      have h1 := vl_bits arg
      rw [h] at h1
      rw [← h1]
      rw [BitVec.toNat_or, BitVec.toNat_and]
      show 0 ||| (arg.toNat &&& 65535) < 65536
      rw [Nat.zero_or]
      exact Nat.lt_of_le_of_lt Nat.and_le_right (by decide)
    · intro h
      have h1 : arg &&& 0xffff#64 = arg := by
        apply BitVec.eq_of_toNat_eq
        rw [BitVec.toNat_and]
        show arg.toNat &&& 65535 = _
        rw [show (65535 : Nat) = 2 ^ 16 - 1 from rfl, Nat.and_two_pow_sub_one_eq_mod]
        exact Nat.mod_eq_of_lt h
      rw [← h1]
      bits
  have hb := vl_bits arg
  unfold vlVal
  dsimp only
  generalize arg &&& ~~~0xffff#64 = fl at *
  have hv := (atom_num (names := names) (arg &&& 0xffff#64)).reads
  generalize arg &&& 0xffff#64 = vl at *
  by_cases hst : st = .raw
  · subst hst
    cases aux <;> simp
    exact (atom_num arg).reads.2
  rw [if_neg hst]
  have body : Reads names (optFlags (sprintflags [] (vlFlags x).data fl none .abbrev false) ++ num vl) arg := by
    by_cases hf : fl = 0
    · have : sprintflags [] (vlFlags x).data 0 none .abbrev false = none := rfl
      rw [hf] at hb ⊢
      rw [this]
      have : vl = arg := by rw [← hb]; simp
      rw [← this]
      exact hv
    · obtain ⟨l, h1, h2⟩ := reads_sflags (d := (vlFlags x).data) hn hf
      rw [h1, ← hb]
      exact reads_or h2 hv
  refine ⟨?_, ?_⟩
  · by_cases hc : fl = 0 ∧ aux = true
    · rw [if_pos hc]
      simp [hc.2, hz.1 hc.1]
    · rw [if_neg hc]
      rw [hz] at hc
      refine ⟨fun h => ?_, fun h => absurd ⟨h.2.resolve_left hst, h.1⟩ hc⟩
      split at h <;> cases h
  · intro l h
    by_cases hc : fl = 0 ∧ aux = true
    · rw [if_pos hc] at h; cases h
    · rw [if_neg hc] at h
      split at h
      · cases h
        have := reads_quiet (atom_num (names := names) arg).reads (good_comment body.1) (strip_comment body.1)
        simpa [List.append_assoc] using this.2
      · cases h
        exact body.2

/-- the frame of the other two: the number, and a comment around `body` -/
theorem framed {st : Verb} {rval : Bool} {arg : BitVec 64} {body : List Tok} (hst : st ≠ .raw)
    (hb : Reads names body arg) :
    valueOf names ((if rval = false ∧ st ≠ .abbrev then num arg else []) ++
      (if rval = false ∧ st = .verbose then [.p .open_] else []) ++ body ++
      (if rval = false ∧ st = .verbose then [.p .close] else [])) = some arg := by
  cases rval with
  | true => simpa using hb.2
  | false =>
    cases st with
    | raw => exact absurd rfl hst
    | «abbrev» => simpa using hb.2
    | verbose =>
      have := reads_quiet (atom_num (names := names) arg).reads (good_comment hb.1) (strip_comment hb.1)
      simpa [List.append_assoc] using this.2

theorem two_names {t : Table} {k : BitVec 64} {a b : String} (hk : k ≠ 0)
    (ht : t = ⟨[⟨0#64, some a⟩, ⟨k, some b⟩], .normal⟩) (hn : Names names [t]) (v : BitVec 64) :
    ∃ l, sprintflags [] t.data v none .abbrev false = some l ∧ Reads names (ps l) v := by
  by_cases hv : v = 0
  · subst hv
    subst ht
    refine ⟨[.name a], rfl, ?_⟩
    exact (atom_name (hn _ (List.mem_singleton.2 rfl) ⟨0#64, some a⟩ List.mem_cons_self a rfl)).reads
  · exact reads_sflags (d := t.data) (by subst ht; exact hn) hv

theorem tagged_addr (st : Verb) (arg : BitVec 64) (rval : Bool) (hn : Names names [taggedEnable, mteTcf])
    (hs : names "PR_MTE_TAG_SHIFT" = some 3) :
    (taggedAddrVal st arg rval = none ↔ rval = true ∧ st = .raw) ∧
    ∀ l, taggedAddrVal st arg rval = some l → valueOf names l = some arg := by
  have hn1 : Names names [taggedEnable] := fun t ht => hn t (by simp at ht; simp [ht])
  have hn2 : Names names [mteTcf] := fun t ht => hn t (by simp at ht; simp [ht])
  have hb := tagged_bits arg
  unfold taggedAddrVal
  dsimp only
  by_cases hst : st = .raw
  · subst hst
    cases rval <;> simp
    exact (atom_num arg).reads.2
  rw [if_neg hst]
  refine ⟨by simp [hst], ?_⟩
  intro l h
  obtain ⟨e, he, hr⟩ := two_names (t := taggedEnable) (k := 1#64) (by decide) rfl hn1 (arg &&& 1#64)
  have hx := (atom_xval (names := names) (arg &&& 6#64) none .abbrev [mteTcf] hn2 (by simp [WellFormed, mteTcf])).reads
  rw [he] at h
  generalize arg &&& 1#64 = en at *
  generalize arg &&& 6#64 = tcf at *
  generalize arg &&& 0x7fff8#64 = tag at *
  generalize arg &&& ~~~(1#64 ||| 6#64 ||| 0x7fff8#64) = rest at *
  have h1 := reads_or hr hx
  have h2 : Reads names (ps e ++ bar ++ xval tcf none .abbrev [mteTcf] ++
      if tag ≠ 0 then bar ++ (num (tag >>> 3) ++ [.shl] ++ [.p (.name "PR_MTE_TAG_SHIFT")]) else [])
      (en ||| tcf ||| (tag >>> 3) <<< 3) := by
    by_cases ht : tag = 0
    · subst ht
      simpa using h1
    · rw [if_pos ht, ← List.append_assoc]
      exact reads_or h1 (reads_shl (atom_num _) (atom_name hs))
  have h3 := opt_post h2 fun _ => (atom_num (names := names) rest).reads
  rw [hb] at h3
  have := framed (rval := rval) hst h3
  rw [← this]
  cases h
  congr 1
  split <;> split <;> split <;> simp [List.append_assoc, strArg, *]

theorem riscv_ctrl (st : Verb) (arg : BitVec 64) (rval : Bool) (hn : Names names [riscvStates, riscvInherit]) :
    (riscvCtrlVal st arg rval = none ↔ rval = true ∧ st = .raw) ∧
    ∀ l, riscvCtrlVal st arg rval = some l → valueOf names l = some arg := by
  have hn1 : Names names [riscvInherit] := fun t ht => hn t (by simp at ht; simp [ht])
  have hn2 : Names names [riscvStates] := fun t ht => hn t (by simp at ht; simp [ht])
  have hb := riscv_bits arg
  unfold riscvCtrlVal
  dsimp only
  by_cases hst : st = .raw
  · subst hst
    cases rval <;> simp
    exact (atom_num arg).reads.2
  rw [if_neg hst]
  refine ⟨by simp [hst], ?_⟩
  intro l h
  obtain ⟨e, he, hr⟩ := two_names (t := riscvInherit) (k := 16#64) (by decide) rfl hn1 (arg &&& 16#64)
  have hw : ∀ t ∈ [riscvStates], WellFormed t := by simp [WellFormed, riscvStates]
  have hx := atom_xval (names := names) (arg &&& 3#64) none .abbrev [riscvStates] hn2 hw
  have hy := atom_xval (names := names) ((arg &&& 0xc#64) >>> 2) none .abbrev [riscvStates] hn2 hw
  rw [he] at h
  generalize (arg &&& 0xc#64) >>> 2 = next at *
  generalize arg &&& 16#64 = inh at *
  generalize arg &&& 3#64 = cur at *
  generalize arg &&& ~~~0x1f#64 = rest at *
  have h1 := reads_or hx.reads (reads_or (reads_shl hy (atom_num 2)) hr)
  have h3 := opt_post h1 fun _ => (atom_num (names := names) rest).reads
  have h4 := framed (rval := rval) hst (show Reads names _ arg from hb ▸ h3)
  rw [← h4]
  cases h
  congr 1
  split <;> split <;> split <;> simp [List.append_assoc, strArg, *]

/-! ### concrete cases -/

def ctrlNames (s : String) : Option (BitVec 64) :=
  if s = "PR_SVE_SET_VL_ONEXEC" then some 0x40000#64 else if s = "PR_SVE_VL_INHERIT" then some 0x20000#64
  else if s = "!PR_TAGGED_ADDR_ENABLE" then some 0 else if s = "PR_TAGGED_ADDR_ENABLE" then some 1
  else if s = "PR_MTE_TCF_NONE" then some 0 else if s = "PR_MTE_TCF_SYNC" then some 2
  else if s = "PR_MTE_TCF_ASYNC" then some 4 else if s = "PR_MTE_TCF_MASK" then some 6
  else if s = "PR_MTE_TAG_SHIFT" then some 3 else none

theorem ctrlNames_ok : Names ctrlNames [vlFlags "SVE", taggedEnable, mteTcf] := by
  intro t ht e he s hs
  simp at ht
  rcases ht with rfl | rfl | rfl
  · simp [vlFlags] at he
    rcases he with rfl | rfl <;> (simp at hs; subst hs; decide)
  · simp [taggedEnable] at he
    rcases he with rfl | rfl <;> (simp at hs; subst hs; decide)
  · simp [mteTcf] at he
    rcases he with rfl | rfl | rfl | rfl <;> (simp at hs; subst hs; decide)

example : vlVal "SVE" .abbrev 0xc0040010#64 false = some
    [.p (.name "PR_SVE_SET_VL_ONEXEC"), .p .bar, .p (.num 0xc0000000#64), .p .bar, .p (.num 16)] := by decide +kernel
example : ∃ l, taggedAddrVal .abbrev 0x80001b#64 false = some l ∧ valueOf ctrlNames l = some 0x80001b#64 := by
  refine ⟨[.p (.name "PR_TAGGED_ADDR_ENABLE"), .p .bar, .p (.name "PR_MTE_TCF_SYNC"), .p .bar, .p (.num 3), .shl,
    .p (.name "PR_MTE_TAG_SHIFT"), .p .bar, .p (.num 0x800000#64)], by decide +kernel, ?_⟩
  exact (tagged_addr .abbrev _ false (fun t ht => ctrlNames_ok t (by simp at ht; simp [ht])) rfl).2 _ (by decide +kernel)
example : riscvCtrlVal .verbose 0x3e#64 false = some
    [.p (.num 0x3e#64), .p .open_, .p (.name "PR_RISCV_V_VSTATE_CTRL_ON"), .p .bar, .p (.num 3), .shl, .p (.num 2),
      .p .bar, .p (.name "PR_RISCV_V_VSTATE_CTRL_INHERIT"), .p .bar, .p (.num 0x20#64), .p .close] := by decide +kernel

end Strace.Pack
