import Mathlib.Tactic.IntervalCases
import Verif.Pack.Read
/-
C82, C83: packed words can be read back from what is printed.
-/
namespace Strace.Pack
open Strace.Xlat

variable {names : String → Option (BitVec 64)}

/-! ### bits -/

macro "bits" : tactic => `(tactic|
  (apply BitVec.eq_of_getLsbD_eq; intro i hi; interval_cases i <;> simp))

set_option maxRecDepth 4000

theorem split_off (v m : BitVec 64) : (v &&& m) ||| (v &&& ~~~m) = v := by
  ext i hi; simp; cases v[i] <;> cases m[i] <;> rfl

theorem mmap_bits (v : BitVec 64) : (v &&& 0xf#64) ||| (v &&& ~~~0xf#64 &&& 0x3ffffff#64) |||
    (((v &&& ~~~0xf#64 &&& 0xfc000000#64) >>> 26) <<< 26) = v &&& 0xffffffff#64 := by bits

theorem low_word (a : BitVec 32) : a.setWidth 64 &&& 0xffffffff#64 = a.setWidth 64 := by bits

theorem huge_bits (a : BitVec 32) : (a.setWidth 64 &&& 0x3ffffff#64) |||
    (((a.setWidth 64 &&& 0xfc000000#64) >>> 26) <<< 26) = a.setWidth 64 := by bits

theorem shm_bits (a : BitVec 32) : (a.setWidth 64 &&& 0xfffffe00#64 &&& 0x3ffffff#64) |||
    (((a.setWidth 64 &&& 0xfffffe00#64 &&& 0xfc000000#64) >>> 26) <<< 26) ||| (a.setWidth 64 &&& 0x1ff#64)
      = a.setWidth 64 := by bits

theorem mode_bits (a : BitVec 32) : (a.setWidth 64 &&& 0xfffffe00#64) ||| (a.setWidth 64 &&& 0x1ff#64)
    = a.setWidth 64 := by bits

theorem mount_bits (v : BitVec 64) : (v &&& 0xffff0000#64) ||| (v &&& 0xffff#64) = v &&& 0xffffffff#64 := by bits

theorem futex_bits (a : BitVec 32) :
    (((a.setWidth 64 >>> 28) &&& 8#64) <<< 28) ||| (((a.setWidth 64 >>> 28) &&& 7#64) <<< 28 |||
      (((a.setWidth 64 >>> 12) &&& 0xfff#64) <<< 12 ||| (((a.setWidth 64 >>> 24) &&& 0xf#64) <<< 24 |||
        (a.setWidth 64 &&& 0xfff#64)))) = a.setWidth 64 := by bits

theorem futex_top (v : BitVec 64) (h : (v >>> 28) &&& 8#64 ≠ 0) : (v >>> 28) &&& 8#64 = 8#64 := by
  apply BitVec.eq_of_getLsbD_eq
  have h3 : v.getLsbD 31 = true := by
    by_contra hc
    apply h
    apply BitVec.eq_of_getLsbD_eq
    intro i hi
    interval_cases i <;> simp at hc ⊢
    exact hc
  intro i hi
  interval_cases i <;> simp [h3]

theorem sock_bits (a : BitVec 32) : (a.setWidth 64 &&& 0xf#64) ||| (a.setWidth 64 &&& 0xfffffff0#64)
    = a.setWidth 64 := by bits

theorem pers_bits (a : BitVec 32) : (a.setWidth 64 &&& 0xff#64) ||| (a.setWidth 64 &&& 0xffffff00#64)
    = a.setWidth 64 := by bits

theorem nla_bits (a : BitVec 16) : (a.setWidth 64 &&& 0x8000#64) ||| ((a.setWidth 64 &&& 0x4000#64) |||
    (a.setWidth 64 &&& 0x3fff#64)) = a.setWidth 64 := by bits

theorem bit15 (v : BitVec 64) (h : v &&& 0x8000#64 ≠ 0) : v &&& 0x8000#64 = 0x8000#64 := by
  have h3 : v.getLsbD 15 = true := by
    by_contra hc
    apply h
    apply BitVec.eq_of_getLsbD_eq
    intro i hi
    interval_cases i <;> simp at hc ⊢
    exact hc
  apply BitVec.eq_of_getLsbD_eq
  intro i hi
  interval_cases i <;> simp [h3]

theorem bit14 (v : BitVec 64) (h : v &&& 0x4000#64 ≠ 0) : v &&& 0x4000#64 = 0x4000#64 := by
  have h3 : v.getLsbD 14 = true := by
    by_contra hc
    apply h
    apply BitVec.eq_of_getLsbD_eq
    intro i hi
    interval_cases i <;> simp at hc ⊢
    exact hc
  apply BitVec.eq_of_getLsbD_eq
  intro i hi
  interval_cases i <;> simp [h3]

theorem nf_bits (a : BitVec 16) : ((a.setWidth 64 >>> 8) <<< 8) ||| (a.setWidth 64 &&& 0xff#64)
    = a.setWidth 64 := by bits

theorem half_bits (a : BitVec 32) : ((a.setWidth 64 >>> 16) <<< 16) ||| (a.setWidth 64 &&& 0xffff#64)
    = a.setWidth 64 := by bits

theorem word_bits (c : BitVec 64) : ((c >>> 32) <<< 32) ||| (c &&& 0xffffffff#64) = c := by bits

theorem cache_bits (c : BitVec 64) : ((c >>> 32) <<< 32) ||| ((((c &&& 0xffffffff#64) >>> 24) <<< 24) |||
    ((((c >>> 16) &&& 0xff#64) <<< 16) ||| ((((c >>> 8) &&& 0xff#64) <<< 8) ||| (c &&& 0xff#64)))) = c := by bits

theorem seccomp_bits (k : BitVec 32) : (k.setWidth 64 &&& 0xffff0000#64) |||
    (k.setWidth 64 &&& (~~~(k &&& 0xffff0000#32)).setWidth 64) = k.setWidth 64 := by bits

theorem cflag_bits (v : BitVec 64) : (v &&& 0x100f#64) ||| ((((v &&& 0x100f0000#64) >>> 16) <<< 16) |||
    ((v &&& 0x30#64) ||| (v &&& ~~~0x100f103f#64))) = v := by bits

/-! ### C82 -/

theorem mmap_flags_partial (st : Verb) (t : Table) (flags : BitVec 64) (hn : Names names [t]) (hw : WellFormed t)
    (hs : names "MAP_HUGE_SHIFT" = some 26) (h : st = .abbrev → flags &&& 0xffffffff#64 = flags) :
    valueOf names (mmapFlags st t flags) = some flags := by
  unfold mmapFlags
  refine (reads_styled (w := flags &&& 0xffffffff#64) st ?_ h).2
  dsimp only
  rw [← mmap_bits flags]
  generalize flags &&& ~~~0xf#64 &&& 0x3ffffff#64 = fl
  generalize flags &&& ~~~0xf#64 &&& 0xfc000000#64 = huge
  have h1 := (atom_xval (flags &&& 0xf#64) (some "MAP_???") .abbrev [t] hn (by simp [hw])).reads
  have h2 := opt_post h1 fun hf => reads_flags fl none .abbrev [t] hn (Or.inl hf)
  by_cases hh : huge = 0
  · rw [if_neg (show ¬ huge ≠ 0 from fun h => h hh), List.append_nil, hh]
    have : flags &&& 0xf#64 ||| fl ||| (0 : BitVec 64) >>> 26 <<< 26 = flags &&& 0xf#64 ||| fl := by simp
    rw [this]
    exact h2
  · rw [if_pos hh]
    have := reads_or h2 (reads_shl (atom_num (huge >>> 26)) (atom_name hs))
    simp only [List.append_assoc] at this ⊢
    exact this

/-- bits from 32 up of the flags of `mmap` are not shown in abbreviated style -/
theorem mmap_high_lost (t : Table) (flags : BitVec 64) :
    mmapFlags .abbrev t flags = mmapFlags .abbrev t (flags &&& 0xffffffff#64) := by
  have e1 : flags &&& 0xffffffff#64 &&& 0xf#64 = flags &&& 0xf#64 := by bits
  have e2 : flags &&& 0xffffffff#64 &&& ~~~0xf#64 &&& 0xfc000000#64 = flags &&& ~~~0xf#64 &&& 0xfc000000#64 := by bits
  have e3 : flags &&& 0xffffffff#64 &&& ~~~0xf#64 &&& 0x3ffffff#64 = flags &&& ~~~0xf#64 &&& 0x3ffffff#64 := by bits
  unfold mmapFlags styled
  dsimp only
  rw [e1, e2, e3]

theorem memfd_flags (st : Verb) (t : Table) (arg : BitVec 32) (hn : Names names [t])
    (hs : names "MFD_HUGE_SHIFT" = some 26) :
    valueOf names (memfdFlags st t arg) = some (arg.setWidth 64) := by
  unfold memfdFlags
  dsimp only
  by_cases h0 : arg.setWidth 64 = (0 : BitVec 64)
  · rw [if_pos h0, h0]; rfl
  rw [if_neg h0]
  refine (reads_styled (w := arg.setWidth 64) st ?_ fun _ => rfl).2
  have hb := huge_bits arg
  generalize arg.setWidth 64 = a at *
  generalize a &&& 0x3ffffff#64 = fl at *
  generalize a &&& 0xfc000000#64 = huge at *
  rw [← hb]
  by_cases hh : huge = 0
  · rw [if_pos (Or.inr hh), if_neg (by simp [hh]), List.append_nil, hh]
    have := reads_flags fl (some "MFD_???") .abbrev [t] hn (Or.inr rfl)
    simpa using this
  · have h1 := reads_shl (names := names) (atom_num (huge >>> 26)) (atom_name hs)
    rw [if_pos hh]
    by_cases hf : fl = 0
    · rw [if_neg (show ¬ (fl ≠ 0 ∨ huge = 0) from fun h => h.elim (fun h => h hf) hh), if_neg (show ¬ fl ≠ 0 by simp [hf]), hf]
      simpa using h1
    · rw [if_pos (Or.inl hf), if_pos hf]
      have := reads_or (reads_flags fl (some "MFD_???") .abbrev [t] hn (Or.inr rfl)) h1
      simpa [List.append_assoc] using this

theorem mount_flags_partial (st : Verb) (t : Table) (arg : BitVec 64) (hn : Names names [t])
    (hs : names "MS_MGC_VAL" = some 0xc0ed0000#64)
    (h : arg &&& 0xffff0000#64 = 0xc0ed0000#64 → arg &&& 0xffffffff#64 = arg) :
    valueOf names (mountFlags st t arg) = some arg := by
  unfold mountFlags
  dsimp only
  by_cases hm : arg &&& 0xffff0000#64 = 0xc0ed0000#64
  · rw [decide_eq_true hm]
    simp only [if_pos]
    have hb := mount_bits arg
    rw [hm, h hm] at hb
    have h1 := (atom_lit (names := names) (st := st) hs).reads
    by_cases hf : arg &&& 0xffff#64 = 0
    · rw [hf] at hb ⊢
      simp only [ne_eq, not_true_eq_false, if_false, Bool.true_eq_false, or_self, List.append_nil]
      rw [← hb]
      simpa using h1.2
    · rw [if_pos hf, if_pos (Or.inl hf), (reads_or h1 (reads_flags _ (some "MS_???") st [t] hn (Or.inr rfl))).2]
      exact congrArg some hb
  · rw [decide_eq_false hm]
    simp only [Bool.false_eq_true, if_false, or_true, if_true, List.nil_append]
    exact (reads_flags _ (some "MS_???") st [t] hn (Or.inr rfl)).2

theorem mount_high_lost (st : Verb) (t : Table) (arg : BitVec 64)
    (h : arg &&& 0xffff0000#64 = 0xc0ed0000#64) :
    mountFlags st t arg = mountFlags st t (arg &&& 0xffffffff#64) := by
  have e1 : arg &&& 0xffffffff#64 &&& 0xffff0000#64 = arg &&& 0xffff0000#64 := by bits
  have e2 : arg &&& 0xffffffff#64 &&& 0xffff#64 = arg &&& 0xffff#64 := by bits
  unfold mountFlags
  dsimp only
  rw [e1, e2, h]
  simp

theorem futex_op (st : Verb) (ops cmps : Table) (val3 : BitVec 32) (hn : Names names [ops, cmps])
    (hw : WellFormed ops) (hw' : WellFormed cmps) (hs : names "FUTEX_OP_OPARG_SHIFT" = some 8) :
    valueOf names (futexOp st ops cmps val3) = some (val3.setWidth 64) := by
  unfold futexOp
  dsimp only
  have hb := futex_bits val3
  have ht := futex_top (val3.setWidth 64)
  generalize val3.setWidth 64 = v at *
  have hn1 : Names names [ops] := fun t ht => hn t (by simp at ht; simp [ht])
  have hn2 : Names names [cmps] := fun t ht => hn t (by simp at ht; simp [ht])
  have hop := atom_xval ((v >>> 28) &&& 7#64) none st [ops] hn1 (by simp [hw])
  have hcmp := atom_xval ((v >>> 24) &&& 0xf#64) none st [cmps] hn2 (by simp [hw'])
  unfold xval at hop hcmp
  generalize printxvals ((v >>> 28) &&& 7#64) none st [ops] = op at *
  generalize printxvals ((v >>> 24) &&& 0xf#64) none st [cmps] = cmp at *
  have opt : ∀ (n : Nat) (s : String) (l : List Tok) (x : BitVec 64), Reads names l x →
      Reads names (l ++ if n = 0 then note s else []) x := by
    intro n s l x h
    by_cases hz : n = 0
    · rw [if_pos hz]; exact reads_note s h
    · rw [if_neg hz, List.append_nil]; exact h
  have h1 := opt op.2 "FUTEX_OP_???" _ _ (reads_shl hop (atom_num 28))
  have h2 := reads_shl (names := names) (atom_num ((v >>> 12) &&& 0xfff#64)) (atom_num 12)
  have h3 := opt cmp.2 "FUTEX_OP_CMP_???" _ _ (reads_shl hcmp (atom_num 24))
  have h4 := (atom_num (names := names) (v &&& 0xfff#64)).reads
  have hr := reads_or h1 (reads_or h2 (reads_or h3 h4))
  have h5 := opt_pre (z := (v >>> 28) &&& 8#64) (x := ((v >>> 28) &&& 8#64) <<< 28)
    (p := lit st 8 "FUTEX_OP_OPARG_SHIFT" ++ [.shl] ++ num 28) hr
    (fun h8 => by rw [ht h8]; exact reads_shl (atom_lit hs) (atom_num 28)) (shl_zero 28)
  have h6 := reads_eq h5 hb
  simp only [List.append_assoc] at h6 ⊢
  exact h6

theorem clone_flags (st : Verb) (t : Table) (signame : BitVec 64 → Option String) (arg : BitVec 64)
    (hn : Names names [t]) (hs : ∀ v s, signame v = some s → names s = some v) :
    valueOf names (cloneFlags st t signame arg) = some arg := by
  unfold cloneFlags
  dsimp only
  have hb := split_off arg 0xff#64
  have hsig := (signal_atom (st := st) (fun s => hs (arg &&& 0xff#64) s)).reads
  generalize arg &&& 0xff#64 = sig at *
  generalize arg &&& ~~~0xff#64 = fl at *
  rw [BitVec.or_comm] at hb
  rw [← hb]
  by_cases hf : fl = 0
  · rw [if_neg (by simp [hf]), hf]
    simpa using hsig.2
  · rw [if_pos hf]
    have h1 := reads_flags fl (some "CLONE_???") st [t] hn (Or.inr rfl)
    by_cases h0 : sig = 0
    · rw [if_neg (by simp [h0]), h0]
      simpa using h1.2
    · rw [if_pos h0, ← List.append_assoc]
      exact (reads_or h1 hsig).2

theorem shmget_flags (st : Verb) (t : Table) (arg : BitVec 32) (hn : Names names [t])
    (hz : zeroOf [t] = none) (hs : names "SHM_HUGE_SHIFT" = some 26) :
    valueOf names (shmgetFlags st t arg) = some (arg.setWidth 64) := by
  unfold shmgetFlags
  dsimp only
  have hb := shm_bits arg
  generalize arg.setWidth 64 = a at *
  generalize a &&& 0x1ff#64 = m at *
  generalize a &&& 0xfffffe00#64 &&& 0x3ffffff#64 = fl at *
  generalize a &&& 0xfffffe00#64 &&& 0xfc000000#64 = huge at *
  have hm := (atom_num (names := names) m).reads
  have h1 := reads_shl (names := names) (atom_num (huge >>> 26)) (atom_lit (st := st) hs)
  rw [← hb]
  by_cases hh : huge = 0
  · by_cases hf : fl = 0
    · rw [hf, hh]
      simp only [or_true, if_true, ne_eq, not_true_eq_false, if_false, or_self, List.append_nil]
      rw [flags_zero st t hz]
      simpa using hm.2
    · rw [if_pos (Or.inl hf), if_neg (by simp [hh]), if_pos (Or.inl hf), hh]
      have := reads_or (reads_flags fl none st [t] hn (Or.inl hf)) hm
      simpa using this.2
  · rw [if_pos (show fl ≠ 0 ∨ huge ≠ 0 from Or.inr hh), if_pos hh]
    by_cases hf : fl = 0
    · rw [if_neg (show ¬ (fl ≠ 0 ∨ huge = 0) from fun h => h.elim (fun h => h hf) hh), if_neg (show ¬ fl ≠ 0 by simp [hf]), hf]
      have := (reads_or h1 hm).2
      simpa using this
    · rw [if_pos (Or.inl hf), if_pos hf]
      have := (reads_or (reads_or (reads_flags fl none st [t] hn (Or.inl hf)) h1) hm).2
      simpa [List.append_assoc] using this

/-- `msgget` and `semget`: the text is right if no flags are set or one of them has a name -/
theorem get_flags_partial (st : Verb) (t : Table) (arg : BitVec 32) (hn : Names names [t])
    (hz : zeroOf [t] = none)
    (h : st = .raw ∨ arg.setWidth 64 &&& 0xfffffe00#64 = 0 ∨
      ∃ e ∈ t.data, e.str.isSome = true ∧ e.val ≠ 0 ∧ Within e.val (arg.setWidth 64 &&& 0xfffffe00#64)) :
    valueOf names (getFlags st t arg) = some (arg.setWidth 64) := by
  unfold getFlags
  dsimp only
  have hb := mode_bits arg
  generalize arg.setWidth 64 = a at *
  generalize a &&& 0x1ff#64 = m at *
  generalize a &&& 0xfffffe00#64 = fl at *
  have hm := (atom_num (names := names) m).reads
  rw [← hb]
  by_cases hf : fl = 0
  · have h0 : (printflags 0 none st [t]).2 = 0 := by
      by_cases hst : st = .raw
      · subst hst; rw [printflags_raw]; simp
      · rw [printflags_zero none st [t] hst, hz]
    have h1 := flags_zero st t hz
    unfold flagsT at h1
    rw [hf, h0, h1]
    simpa using hm.2
  · have h2 : (printflags fl none st [t]).2 ≠ 0 := by
      by_cases hst : st = .raw
      · subst hst; rw [printflags_raw, if_pos (Or.inl hf)]; simp
      · obtain ⟨L, r, hd, he⟩ := printflags_or fl none st [t] hst hf
        have hL : L ≠ [] := by
          rintro rfl
          rcases h with h | h | ⟨e, h1, h2, h3, h4⟩
          · exact hst h
          · exact hf h
          · have : r = fl := by have := hd.total; simpa [orAll] using this
            subst this
            exact hd.maximal e (by simpa [allEntries] using h1) h2 h3 h4
        have hlen : L.length ≠ 0 := by simpa using hL
        rw [he, if_neg hL]
        split <;> (dsimp only; omega)
    rw [if_pos h2]
    exact (reads_or (reads_flags fl none st [t] hn (Or.inl hf)) hm).2

/-- otherwise the flags and the mode are printed without anything between them -/
theorem get_flags_glued (st : Verb) (t : Table) (arg : BitVec 32) (hst : st ≠ .raw)
    (hf : arg.setWidth 64 &&& 0xfffffe00#64 ≠ 0)
    (h : ∀ e ∈ t.data, e.str.isSome = true → e.val ≠ 0 → ¬ Within e.val (arg.setWidth 64 &&& 0xfffffe00#64)) :
    getFlags st t arg = num (arg.setWidth 64 &&& 0xfffffe00#64) ++ num (arg.setWidth 64 &&& 0x1ff#64) ∧
    valueOf names (getFlags st t arg) = none := by
  have key : getFlags st t arg =
      num (arg.setWidth 64 &&& 0xfffffe00#64) ++ num (arg.setWidth 64 &&& 0x1ff#64) := by
    unfold getFlags
    dsimp only
    generalize arg.setWidth 64 &&& 0x1ff#64 = m at *
    generalize arg.setWidth 64 &&& 0xfffffe00#64 = fl at *
    obtain ⟨L, r, hd, he⟩ := printflags_or fl none st [t] hst hf
    have hL : L = [] := by
      cases L with
      | nil => rfl
      | cons e L =>
        have hm := hd.sub.subset (List.mem_cons_self (a := e) (l := L))
        obtain ⟨w1, w2⟩ := hd.within e (by simp)
        exact absurd w1 (h e (by simpa [allEntries] using hm) (hd.named e (by simp)) w2)
    rw [he, if_pos hL]
    rfl
  refine ⟨key, ?_⟩
  rw [key]
  rfl

theorem sock_type (st : Verb) (types t : Table) (arg : BitVec 32) (hn : Names names [types, t])
    (hw : WellFormed types) : valueOf names (sockType st types t arg) = some (arg.setWidth 64) := by
  unfold sockType
  dsimp only
  have hn2 : Names names [t] := fun t' ht => hn t' (by simp at ht; simp [ht])
  cases hx : xlookup types (arg.setWidth 64 &&& 0xf#64) with
  | none => exact (reads_flags _ (some "SOCK_???") st [t] hn2 (Or.inr rfl)).2
  | some s =>
    dsimp only
    rw [xlookup_eq types hw] at hx
    have h1 := (atom_lit (st := st) (nameOf_named hn (by simp) hx)).reads
    have h2 := opt_post h1 fun _ =>
      reads_flags (arg.setWidth 64 &&& 0xfffffff0#64) (some "SOCK_???") st [t] hn2 (Or.inr rfl)
    rw [← reads_eq h2 (sock_bits arg)]
    congr 2
    rw [ite_not]

theorem personality_arg (st : Verb) (types t : Table) (arg : BitVec 32) (hn : Names names [types, t])
    (hw : WellFormed types) : valueOf names (personality st types t arg) = some (arg.setWidth 64) := by
  unfold personality
  dsimp only
  have hn1 : Names names [types] := fun t' ht => hn t' (by simp at ht; simp [ht])
  have hn2 : Names names [t] := fun t' ht => hn t' (by simp at ht; simp [ht])
  by_cases hf : arg.setWidth 64 = 0xffffffff#64
  · rw [if_pos hf]; exact (atom_num _).reads.2
  rw [if_neg hf]
  have h1 := (atom_xval (arg.setWidth 64 &&& 0xff#64) (some "PER_???") st [types] hn1 (by simp [hw])).reads
  exact reads_eq (opt_post h1 fun hr => reads_flags _ none st [t] hn2 (Or.inl hr)) (pers_bits arg)

theorem nla_type (st : Verb) (ts : List Table) (dflt : Option String) (ty : BitVec 16) (hn : Names names ts)
    (hw : ∀ t ∈ ts, WellFormed t) (h1 : names "NLA_F_NESTED" = some 0x8000)
    (h2 : names "NLA_F_NET_BYTEORDER" = some 0x4000) :
    valueOf names (nlaType st ts dflt ty) = some (ty.setWidth 64) := by
  unfold nlaType
  dsimp only
  have h3 := (atom_xval (ty.setWidth 64 &&& 0x3fff#64) dflt st ts hn hw).reads
  have h4 := opt_pre (z := ty.setWidth 64 &&& 0x4000#64) (x := ty.setWidth 64 &&& 0x4000#64) h3
    (fun hz => by rw [bit14 _ hz]; exact (atom_lit (st := st) h2).reads) id
  have h5 := opt_pre (z := ty.setWidth 64 &&& 0x8000#64) (x := ty.setWidth 64 &&& 0x8000#64) h4
    (fun hz => by rw [bit15 _ hz]; exact (atom_lit (st := st) h1).reads) id
  rw [List.append_assoc]
  exact reads_eq h5 (nla_bits ty)

theorem nf_type (st : Verb) (msgs subsys : Table) (dflt : Option String)
    (sub : BitVec 64 → Option (List Table × Option String)) (ty : BitVec 16) (hn : Names names [msgs, subsys])
    (hw1 : WellFormed msgs) (hw2 : WellFormed subsys)
    (hsub : ∀ v ts d, sub v = some (ts, d) → Names names ts ∧ ∀ t ∈ ts, WellFormed t) :
    valueOf names (nfType st msgs subsys dflt sub ty) = some (ty.setWidth 64) := by
  unfold nfType
  dsimp only
  cases hx : xlookup msgs (ty.setWidth 64) with
  | some s =>
    rw [xlookup_eq msgs hw1] at hx
    exact (atom_lit (st := st) (nameOf_named hn (by simp) hx)).reads.2
  | none =>
    dsimp only
    have hn2 : Names names [subsys] := fun t' ht => hn t' (by simp at ht; simp [ht])
    have h1 := reads_shl (atom_xval (ty.setWidth 64 >>> 8) dflt st [subsys] hn2 (by simp [hw2])) (atom_num 8)
    have hfin : ∀ l, Reads names l (ty.setWidth 64 &&& 0xff#64) →
        valueOf names (xval (ty.setWidth 64 >>> 8) dflt st [subsys] ++ [.shl] ++ num 8 ++ bar ++ l) =
          some (ty.setWidth 64) := fun l hl => reads_eq (reads_or h1 hl) (nf_bits ty)
    cases hs : sub (ty.setWidth 64 >>> 8) with
    | none => exact hfin _ (atom_num _).reads
    | some q =>
      obtain ⟨ts, d⟩ := q
      obtain ⟨g1, g2⟩ := hsub _ _ _ hs
      exact hfin _ (atom_xval _ d st ts g1 g2).reads

/-- a high part, shifted, before the others -/
theorem high_part {l : List Tok} {x y : BitVec 64} (k : BitVec 64) (hl : Reads names l y) :
    Reads names ((if x ≠ 0 then num x ++ [.shl] ++ num k ++ bar else []) ++ l) ((x <<< k.toNat) ||| y) :=
  opt_pre (z := x) hl (fun _ => reads_shl (atom_num x) (atom_num k)) (shl_zero k.toNat)

theorem ipc_call (st : Verb) (t : Table) (arg : BitVec 32) (hn : Names names [t]) (hw : WellFormed t) :
    valueOf names (ipcCall st t arg) = some (arg.setWidth 64) :=
  reads_eq (high_part 16 (atom_xval (arg.setWidth 64 &&& 0xffff#64) none st [t] hn (by simp [hw])).reads)
    (half_bits arg)

theorem tone_arg (arg : BitVec 32) : valueOf names (tone arg) = some (arg.setWidth 64) :=
  reads_eq (high_part 16 (atom_num (arg.setWidth 64 &&& 0xffff#64)).reads) (half_bits arg)

theorem perf_hw (st : Verb) (t : Table) (c : BitVec 64) (hn : Names names [t]) (hw : WellFormed t) :
    valueOf names (perfHw st t c) = some c :=
  reads_eq (high_part 32
    (atom_xval (c &&& 0xffffffff#64) (some "PERF_COUNT_HW_???") st [t] hn (by simp [hw])).reads) (word_bits c)

theorem perf_cache (st : Verb) (res op ids : Table) (c : BitVec 64) (hn : Names names [res, op, ids])
    (hw1 : WellFormed res) (hw2 : WellFormed op) (hw3 : WellFormed ids) :
    valueOf names (perfCache st res op ids c) = some c := by
  have hn1 : Names names [res] := fun t' ht => hn t' (by simp at ht; simp [ht])
  have hn2 : Names names [op] := fun t' ht => hn t' (by simp at ht; simp [ht])
  have hn3 : Names names [ids] := fun t' ht => hn t' (by simp at ht; simp [ht])
  have h1 := reads_shl (atom_xval ((c >>> 16) &&& 0xff#64) (some "PERF_COUNT_HW_CACHE_RESULT_???") st [res] hn1
    (by simp [hw1])) (atom_num 16)
  have h2 := reads_shl (atom_xval ((c >>> 8) &&& 0xff#64) (some "PERF_COUNT_HW_CACHE_OP_???") st [op] hn2
    (by simp [hw2])) (atom_num 8)
  have h3 := (atom_xval (c &&& 0xff#64) (some "PERF_COUNT_HW_CACHE_???") st [ids] hn3 (by simp [hw3])).reads
  have h5 := reads_eq (high_part 32 (high_part 24 (reads_or h1 (reads_or h2 h3)))) (cache_bits c)
  unfold perfCache
  simp only [List.append_assoc] at h5 ⊢
  exact h5

theorem seccomp_k (st : Verb) (t : Table) (k : BitVec 32) (hn : Names names [t]) (hw : WellFormed t) :
    valueOf names (seccompK st t k) = some (k.setWidth 64) :=
  reads_eq (opt_post
    (atom_xval (k.setWidth 64 &&& 0xffff0000#64) (some "SECCOMP_RET_???") st [t] hn (by simp [hw])).reads
    fun _ => (atom_num _).reads) (seccomp_bits k)

/-! #### terminal flags -/

/-- the parts of the output flags, as far as the loop goes, with the rest of the word -/
theorem oflag_loop (st : Verb) (l : List (BitVec 64 × Table × String)) (v : BitVec 64)
    (hn : ∀ m t d, (m, t, d) ∈ l → Names names [t] ∧ WellFormed t) {r : List Tok}
    (hr : Reads names r (oflagRest l v)) : Reads names (oflagLoop st l v ++ r) v := by
  induction l generalizing v with
  | nil => exact hr
  | cons e l ih =>
    obtain ⟨m, t, d⟩ := e
    obtain ⟨g1, g2⟩ := hn m t d (by simp)
    have h1 := (atom_xval (v &&& m) (some d) st [t] g1 (by simp [g2])).reads
    have h2 := ih (v &&& ~~~m) (fun m' t' d' h => hn m' t' d' (by simp [h])) hr
    have h3 := reads_or h1 h2
    rw [split_off] at h3
    have : oflagLoop st ((m, t, d) :: l) v ++ r =
        xval (v &&& m) (some d) st [t] ++ bar ++ (oflagLoop st l (v &&& ~~~m) ++ r) := by
      simp [oflagLoop]
    rw [this]
    exact h3

theorem oflag_partial (st : Verb) (l : List (BitVec 64 × Table × String)) (t : Table) (v : BitVec 64)
    (hl : ∀ m t d, (m, t, d) ∈ l → Names names [t] ∧ WellFormed t) (hn : Names names [t])
    (h : oflagRest l v ≠ 0) : valueOf names (oflag st l t v) = some v :=
  (oflag_loop st l v hl (reads_flags _ none st [t] hn (Or.inl h))).2

theorem oflag_loop_bar (st : Verb) (l : List (BitVec 64 × Table × String)) (v : BitVec 64) (h : l ≠ []) :
    (oflagLoop st l v).getLast? = some (.p .bar) := by
  induction l generalizing v with
  | nil => exact absurd rfl h
  | cons e l ih =>
    obtain ⟨m, t, d⟩ := e
    unfold oflagLoop
    cases l with
    | nil => simp [oflagLoop, bar]
    | cons e' l' =>
      have := ih (v &&& ~~~m) (by simp)
      rw [List.getLast?_append, this]
      rfl

/-- terminal output flags without any flag outside the delay fields end in a bar -/
theorem oflag_trailing_bar (st : Verb) (l : List (BitVec 64 × Table × String)) (t : Table) (v : BitVec 64)
    (hz : zeroOf [t] = none) (h : l ≠ []) (h0 : oflagRest l v = 0) :
    (oflag st l t v).getLast? = some (.p .bar) := by
  unfold oflag
  rw [h0, flags_zero st t hz, List.append_nil]
  exact oflag_loop_bar st l v h

theorem cflag_partial (st : Verb) (baud csize t : Table) (v : BitVec 64) (hn : Names names [baud, csize, t])
    (hw1 : WellFormed baud) (hw2 : WellFormed csize) (hs : names "IBSHIFT" = some 16)
    (h : v &&& ~~~0x100f103f#64 ≠ 0) : valueOf names (cflag st baud csize t v) = some v := by
  have hn1 : Names names [baud] := fun t' ht => hn t' (by simp at ht; simp [ht])
  have hn2 : Names names [csize] := fun t' ht => hn t' (by simp at ht; simp [ht])
  have hn3 : Names names [t] := fun t' ht => hn t' (by simp at ht; simp [ht])
  have h1 := (atom_xval (v &&& 0x100f#64) (some "B???") st [baud] hn1 (by simp [hw1])).reads
  have h2 := reads_shl (atom_xval ((v &&& 0x100f0000#64) >>> 16) (some "B???") st [baud] hn1 (by simp [hw1]))
    (atom_lit (st := st) hs)
  have h3 := (atom_xval (v &&& 0x30#64) (some "CS?") st [csize] hn2 (by simp [hw2])).reads
  have h4 := reads_flags (v &&& ~~~0x100f103f#64) none st [t] hn3 (Or.inl h)
  have h5 := reads_or h1 (opt_pre (z := v &&& 0x100f0000#64) (reads_or h3 h4) (fun _ => h2)
    (fun hz => by rw [hz]; exact shl_zero _ (by simp)))
  have h6 := reads_eq h5 (cflag_bits v)
  unfold cflag
  simp only [List.append_assoc] at h6 ⊢
  exact h6

theorem cflag_trailing_bar (st : Verb) (baud csize t : Table) (v : BitVec 64)
    (hz : zeroOf [t] = none) (h0 : v &&& ~~~0x100f103f#64 = 0) :
    (cflag st baud csize t v).getLast? = some (.p .bar) := by
  unfold cflag
  rw [h0, flags_zero st t hz, List.append_nil, List.getLast?_append]
  rfl

/-! #### other -/

theorem open_bits (v : BitVec 64) : (v &&& 3#64) ||| (v &&& ~~~3#64) = v := split_off v _

theorem open_flags (st : Verb) (modes t : Table) (flags : BitVec 64) (hn : Names names [modes, t])
    (hw : WellFormed modes) : valueOf names (openFlags st modes t flags) = some flags := by
  unfold openFlags
  dsimp only
  have hn2 : Names names [t] := fun t' ht => hn t' (by simp at ht; simp [ht])
  cases hx : xlookup modes (flags &&& 3#64) with
  | none => exact (atom_num flags).reads.2
  | some s =>
    dsimp only
    rw [xlookup_eq modes hw] at hx
    have h1 := (atom_name (nameOf_named hn (by simp) hx)).reads
    have hb := open_bits flags
    generalize flags &&& ~~~3#64 = rest at *
    have h2 : Reads names ([.p (.name s)] ++
      (if rest = 0 then []
       else match sprintflags [] t.data rest (some .bar) .abbrev false with
        | some l => ps l
        | none => [])) flags := by
      by_cases hr : rest = 0
      · rw [if_pos hr, List.append_nil]
        rw [hr] at hb
        have : flags &&& 3#64 ||| (0 : BitVec 64) = flags &&& 3#64 := by simp
        rw [this] at hb
        rw [hb] at h1
        exact h1
      · rw [if_neg hr]
        obtain ⟨L, r, hd, he⟩ := sprintflags_or [] t.data rest (some .bar) .abbrev (by simp) hr
        rw [he]
        dsimp only
        rw [if_neg (show ¬ Verb.abbrev = Verb.verbose by simp)]
        have h3 : Reads names (ps (if L = [] then [Piece.num rest] else symbolic L r)) rest := by
          by_cases hL : L = []
          · rw [if_pos hL]; exact (atom_num rest).reads
          · rw [if_neg hL]
            have hd' : Decomposes (allEntries [t]) rest L r := by simpa [allEntries] using hd
            have := reads_symbolic (r := r) hL (listed_named hn2 hd')
            rw [hd.total] at this
            exact this
        have h4 := reads_or h1 h3
        rw [hb] at h4
        have h5 : ps ([] ++ (some Piece.bar).toList ++ if L = [] then [Piece.num rest] else symbolic L r) =
            bar ++ ps (if L = [] then [Piece.num rest] else symbolic L r) := by
          simp [ps, bar]
        rw [h5, ← List.append_assoc]
        exact h4
    have h6 := (reads_styled st h2 fun _ => rfl).2
    cases st <;> exact h6

theorem qcmd_bits (a : BitVec 32) : ((a.setWidth 64 >>> 8) <<< 8) ||| (a.setWidth 64 &&& 0xff#64 &&& 0xff#64)
    = a.setWidth 64 := by bits

theorem quota_cmd (st : Verb) (cmds types : Table) (arg : BitVec 32) (hn : Names names [cmds, types])
    (hw1 : WellFormed cmds) (hw2 : WellFormed types) :
    valueOf names (qcmd st cmds types arg) = some (arg.setWidth 64) := by
  have hn1 : Names names [cmds] := fun t' ht => hn t' (by simp at ht; simp [ht])
  have hn2 : Names names [types] := fun t' ht => hn t' (by simp at ht; simp [ht])
  refine (reads_styled st (reads_call (atom_xval _ _ .abbrev [cmds] hn1 (by simp [hw1]))
    (atom_xval _ _ .abbrev [types] hn2 (by simp [hw2])) (v := arg.setWidth 64) ?_) fun _ => rfl).2
  exact congrArg some (qcmd_bits arg)

theorem ioprio_bits (a : BitVec 32) : ((a.setWidth 64 >>> 13) <<< 13) ||| (a.setWidth 64 &&& 0x1fff#64)
    = a.setWidth 64 := by bits

theorem ioprio_arg (st : Verb) (t : Table) (arg : BitVec 32) (hn : Names names [t]) (hw : WellFormed t) :
    valueOf names (ioprio st t arg) = some (arg.setWidth 64) := by
  refine (reads_styled st (reads_call (atom_xval _ _ st [t] hn (by simp [hw]))
    (atom_num _) (v := arg.setWidth 64) ?_) fun _ => rfl).2
  exact congrArg some (ioprio_bits arg)

theorem dev_bits (d : BitVec 64) :
    ((((d &&& 0x00000000000fff00#64) >>> 8) ||| ((d &&& 0xfffff00000000000#64) >>> 32)) &&& 0xfff#64) <<< 8 |||
    ((((d &&& 0x00000000000fff00#64) >>> 8) ||| ((d &&& 0xfffff00000000000#64) >>> 32)) &&& 0xfffff000#64) <<< 32 |||
    (((d &&& 0x00000000000000ff#64) ||| ((d &&& 0x00000ffffff00000#64) >>> 12)) &&& 0xff#64) |||
    (((d &&& 0x00000000000000ff#64) ||| ((d &&& 0x00000ffffff00000#64) >>> 12)) &&& 0xffffff00#64) <<< 12 = d := by
  bits

theorem dev_number (st : Verb) (dev : BitVec 64) : valueOf names (devT st dev) = some dev := by
  refine (reads_styled st (reads_call (atom_num _) (atom_num _) (v := dev) ?_) fun _ => rfl).2
  exact congrArg some (dev_bits dev)

/-! #### filter statements -/

theorem bpf_ld_bits (a : BitVec 16) : (a.setWidth 64 &&& 7#64) ||| ((a.setWidth 64 &&& 0x18#64) |||
    (a.setWidth 64 &&& 0xe0#64)) = a.setWidth 64 &&& 0xff#64 := by bits

theorem bpf_alu_bits (a : BitVec 16) : (a.setWidth 64 &&& 7#64) ||| ((a.setWidth 64 &&& 8#64) |||
    (a.setWidth 64 &&& 0xf0#64)) = a.setWidth 64 &&& 0xff#64 := by bits

theorem bpf_rest_bits (a : BitVec 16) : (a.setWidth 64 &&& 7#64) ||| (a.setWidth 64 &&& 0xfff8#64)
    = a.setWidth 64 := by bits

theorem bpf_misc_bits (a : BitVec 16) : (a.setWidth 64 &&& 7#64) ||| (a.setWidth 64 &&& 0xf8#64) |||
    (a.setWidth 64 &&& 0xfff8#64 &&& 0xff07#64) = a.setWidth 64 := by bits

theorem bpf_ret_bits (a : BitVec 16) : (a.setWidth 64 &&& 7#64) ||| (a.setWidth 64 &&& 0x18#64) |||
    (a.setWidth 64 &&& 0xfff8#64 &&& 0xffe7#64) = a.setWidth 64 := by bits

/-- all tables of the filter decoder name constants correctly -/
structure BpfOk (names : String → Option (BitVec 64)) (b : BpfTables) : Prop where
  n : Names names ([b.cls, b.mode, b.miscop, b.src, b.rval] ++ b.size ++ b.opAlu ++ b.opJmp)
  w : ∀ t ∈ [b.cls, b.mode, b.miscop, b.src, b.rval] ++ b.size ++ b.opAlu ++ b.opJmp, WellFormed t

/-- the statements whose high byte is shown -/
def showsAll (ext : Bool) (cls : BitVec 64) : Bool :=
  if ext = true then cls = 6 else cls = 2 ∨ cls = 3 ∨ cls = 6 ∨ cls = 7

theorem bpf_class_cases (a : BitVec 16) : a.setWidth 64 &&& 7#64 = 0 ∨ a.setWidth 64 &&& 7#64 = 1 ∨
    a.setWidth 64 &&& 7#64 = 2 ∨ a.setWidth 64 &&& 7#64 = 3 ∨ a.setWidth 64 &&& 7#64 = 4 ∨
    a.setWidth 64 &&& 7#64 = 5 ∨ a.setWidth 64 &&& 7#64 = 6 ∨ a.setWidth 64 &&& 7#64 = (7 : BitVec 64) := by
  have h : (a.setWidth 64 &&& 7#64).toNat < 8 := by
    rw [BitVec.toNat_and]
    exact lt_of_le_of_lt Nat.and_le_right (by decide)
  generalize a.setWidth 64 &&& 7#64 = c at *
  have e : c = BitVec.ofNat 64 c.toNat := by simp
  generalize c.toNat = n at *
  subst e
  interval_cases n <;> simp

/-- what the decoder of a statement's code shows: everything for some classes, the low byte for the
others -/
theorem bpf_shown (st : Verb) (b : BpfTables) (ext : Bool) (code : BitVec 16) (ok : BpfOk names b) :
    valueOf names (bpfCode st b ext code) =
      some (if showsAll ext (code.setWidth 64 &&& 7#64) then code.setWidth 64 else code.setWidth 64 &&& 0xff#64) := by
  have at_ : ∀ (v : BitVec 64) (ts : List Table),
      (∀ t ∈ ts, t ∈ [b.cls, b.mode, b.miscop, b.src, b.rval] ++ b.size ++ b.opAlu ++ b.opJmp) →
      Reads names (xval v (some "BPF_???") st ts) v := fun v ts h =>
    (atom_xval v _ st ts (fun t ht => ok.n t (h t ht)) (fun t ht => ok.w t (h t ht))).reads
  have a1 := fun v => at_ v [b.cls] (by simp)
  have a2 := fun v => at_ v b.size (by simp +contextual)
  have a3 := fun v => at_ v [b.mode] (by simp)
  have a4 := fun v => at_ v [b.miscop] (by simp)
  have a5 := fun v => at_ v [b.src] (by simp)
  have a6 := fun v => at_ v b.opAlu (by simp +contextual)
  have a7 := fun v => at_ v b.opJmp (by simp +contextual)
  have a8 := fun v => at_ v [b.rval] (by simp)
  have b1 := bpf_ld_bits code
  have b2 := bpf_alu_bits code
  have b3 := bpf_rest_bits code
  have b4 := bpf_misc_bits code
  have b5 := bpf_ret_bits code
  have cc := bpf_class_cases code
  unfold bpfCode showsAll
  dsimp only
  generalize code.setWidth 64 = c at *
  have ld := reads_eq (reads_or (a1 (c &&& 7#64)) (reads_or (a2 (c &&& 0x18#64)) (a3 (c &&& 0xe0#64)))) b1
  have alu := reads_eq (reads_or (a1 (c &&& 7#64)) (reads_or (a5 (c &&& 8#64)) (a6 (c &&& 0xf0#64)))) b2
  have jmp := reads_eq (reads_or (a1 (c &&& 7#64)) (reads_or (a5 (c &&& 8#64)) (a7 (c &&& 0xf0#64)))) b2
  have pn : ∀ v, Reads names (num v ++ note "BPF_???") v := fun v => (atom_num_note v _).reads
  have rst := reads_eq (opt_post (a1 (c &&& 7#64)) fun _ => pn (c &&& 0xfff8#64)) b3
  have msc := reads_eq (opt_post (reads_or (a1 (c &&& 7#64)) (a4 (c &&& 0xf8#64)))
    fun _ => pn (c &&& 0xfff8#64 &&& 0xff07#64)) b4
  have ret := reads_eq (opt_post (reads_or (a1 (c &&& 7#64)) (a8 (c &&& 0x18#64)))
    fun _ => pn (c &&& 0xfff8#64 &&& 0xffe7#64)) b5
  simp only [List.append_assoc] at ld alu jmp rst msc ret ⊢
  generalize c &&& 7#64 = k at *
  clear at_ a1 a2 a3 a4 a5 a6 a7 a8 b1 b2 b3 b4 b5 pn ok
  rcases cc with h | h | h | h | h | h | h | h <;> subst h <;> cases ext <;>
    simp only [Bool.false_eq_true, if_true, if_false, reduceIte] <;>
    first | exact ld | exact alu | exact jmp | exact rst | exact msc | exact ret

theorem bpf_code_partial (st : Verb) (b : BpfTables) (ext : Bool) (code : BitVec 16) (ok : BpfOk names b)
    (h : code.setWidth 64 &&& 0xff#64 = code.setWidth 64) :
    valueOf names (bpfCode st b ext code) = some (code.setWidth 64) := by
  rw [bpf_shown st b ext code ok, h, ite_self]

/-- the operation of a jump is named by the operations of jumps, that of other statements is not -/
theorem bpf_operation_names (st : Verb) (b : BpfTables) (ext : Bool) (code : BitVec 16) (t : List Table) :
    (code.setWidth 64 &&& 7#64 = 5 → bpfCode st { b with opAlu := t } ext code = bpfCode st b ext code) ∧
    (code.setWidth 64 &&& 7#64 ≠ 5 → bpfCode st { b with opJmp := t } ext code = bpfCode st b ext code) := by
  constructor
  · intro h
    simp only [bpfCode, h]
    rfl
  · intro h
    simp only [bpfCode, if_neg h]

/-- a statement of each kind -/
example : (0x15#16).setWidth 64 &&& 7#64 = 5 ∧ (0x04#16).setWidth 64 &&& 7#64 ≠ (5 : BitVec 64) := by decide

/-! ### C83 -/

theorem bit7 (v : BitVec 32) : (if decide (v &&& 0x80#32 ≠ 0) = true then 0x80#32 else 0#32) = v &&& 0x80#32 := by
  by_cases h : v &&& 0x80#32 = 0
  · simp only [h, ne_eq, not_true_eq_false, decide_false, Bool.false_eq_true, if_false]
    rfl
  · have h3 : v.getLsbD 7 = true := by
      by_contra hc
      apply h
      apply BitVec.eq_of_getLsbD_eq
      intro i hi
      interval_cases i <;> simp at hc ⊢
      exact hc
    rw [decide_eq_true h, if_pos rfl]
    apply BitVec.eq_of_getLsbD_eq
    intro i hi
    interval_cases i <;> simp [h3]

theorem split_off32 (v m : BitVec 32) : (v &&& m) ||| (v &&& ~~~m) = v := by
  ext i hi; simp; cases v[i] <;> cases m[i] <;> rfl

theorem event_bits (r : BitVec 32) : ((r >>> 16) <<< 16) ||| (r &&& 0xffff#32) = r := by bits

/-- the parts after the first give the rest of the word -/
theorem status_rest (c r : BitVec 32) :
    c ||| (((if r >>> 16 ≠ 0 then some (r >>> 16) else none).getD 0#32) <<< 16) |||
      (if (if r >>> 16 ≠ 0 then r &&& 0xffff#32 else r) ≠ 0 then
        some (if r >>> 16 ≠ 0 then r &&& 0xffff#32 else r) else none).getD 0#32 = c ||| r := by
  have g : ∀ x : BitVec 32, (if x ≠ 0 then some x else none).getD 0#32 = x := by
    intro x
    by_cases h : x = 0
    · rw [if_neg (by simp [h]), h]; rfl
    · rw [if_pos h]; rfl
  rw [g, g, BitVec.or_assoc]
  congr 1
  by_cases h : r >>> 16 = 0
  · rw [if_neg (by simp [h]), h]
    simp
  · rw [if_pos h]
    exact event_bits r

theorem stop_bits (s : BitVec 32) (h : s &&& 0xff#32 = 0x7f#32) :
    (((((s &&& 0xff00#32) >>> 8) &&& 0x7f#32) ||| (((s &&& 0xff00#32) >>> 8) &&& 0x80#32)) <<< 8) ||| 0x7f#32 |||
      (s &&& ~~~((((s &&& 0xff00#32) >>> 8) <<< 8) ||| 0x7f#32)) = s := by
  have h0 : ∀ i, i < 8 → s.getLsbD i = (0x7f#32).getLsbD i := by
    intro i hi
    rw [← h]
    interval_cases i <;> simp
  have e0 := h0 0 (by decide)
  have e1 := h0 1 (by decide)
  have e2 := h0 2 (by decide)
  have e3 := h0 3 (by decide)
  have e4 := h0 4 (by decide)
  have e5 := h0 5 (by decide)
  have e6 := h0 6 (by decide)
  have e7 := h0 7 (by decide)
  simp at e0 e1 e2 e3 e4 e5 e6 e7
  apply BitVec.eq_of_getLsbD_eq
  intro i hi
  interval_cases i <;> simp [e0, e1, e2, e3, e4, e5, e6, e7]

theorem sig_bits (s : BitVec 32) :
    ((s &&& 0x7f#32) ||| (s &&& 0x80#32)) ||| (s &&& ~~~((s &&& 0x7f#32) ||| 0x80#32)) = s := by bits

theorem exit_bits (s : BitVec 32) :
    (((s &&& 0xff00#32) >>> 8) <<< 8) ||| (s &&& ~~~(((s &&& 0xff00#32) >>> 8) <<< 8)) = s := by bits

theorem status_word (s : BitVec 32) : statusWord (printstatus s) = s := by
  unfold printstatus
  dsimp only
  by_cases h1 : s &&& 0xff#32 = 0x7f#32
  · rw [if_pos h1]
    unfold statusWord
    dsimp only
    rw [status_rest]
    unfold condWord
    dsimp only
    rw [bit7]
    exact stop_bits s h1
  rw [if_neg h1]
  by_cases h2 : s &&& 0x7f#32 ≠ 0 ∧ s &&& 0x7f#32 ≠ 0x7f#32
  · rw [if_pos h2]
    unfold statusWord
    dsimp only
    rw [status_rest]
    unfold condWord
    dsimp only
    rw [bit7]
    exact sig_bits s
  rw [if_neg h2]
  by_cases h3 : s &&& 0x7f#32 = 0
  · rw [if_pos h3]
    unfold statusWord
    dsimp only
    rw [status_rest]
    exact exit_bits s
  rw [if_neg h3]
  by_cases h4 : s = 0xffff#32
  · rw [if_pos h4, h4]
    decide +kernel
  · rw [if_neg h4]
    unfold statusWord condWord
    simp

/-- what the words the kernel makes are shown as: exit with a code; death by a signal, with or without
a core dump; stop by a signal; stop of a traced process at a system call; stop with an event;
continued -/
theorem status_shown (c : BitVec 8) :
    printstatus (c.setWidth 32 <<< 8) = ⟨.exited (c.setWidth 32), none, none⟩ ∧
    (c ≠ 0 → c.toNat < 127 → printstatus (c.setWidth 32) = ⟨.signaled (c.setWidth 32) false, none, none⟩ ∧
      printstatus (c.setWidth 32 ||| 0x80#32) = ⟨.signaled (c.setWidth 32) true, none, none⟩ ∧
      printstatus ((c.setWidth 32 <<< 8) ||| 0x7f#32) = ⟨.stopped (c.setWidth 32) false, none, none⟩ ∧
      printstatus (((c.setWidth 32 ||| 0x80#32) <<< 8) ||| 0x7f#32) = ⟨.stopped (c.setWidth 32) true, none, none⟩) ∧
    (c ≠ 0 → printstatus ((c.setWidth 32 <<< 16) ||| 0x57f#32) =
      ⟨.stopped 5 false, some (c.setWidth 32), none⟩) ∧
    printstatus 0xffff#32 = ⟨.continued, none, none⟩ := by
  revert c
  decide +kernel

/-! ### concrete cases -/

/-- a table of flags, and names -/
def exTable : Table := ⟨[⟨2, some "TWO"⟩, ⟨0x10, some "SIXTEEN"⟩, ⟨0x200, some "FIVETWELVE"⟩], .normal⟩

def exNames (s : String) : Option (BitVec 64) :=
  if s = "TWO" then some 2 else if s = "SIXTEEN" then some 0x10 else if s = "FIVETWELVE" then some 0x200
  else if s = "MAP_HUGE_SHIFT" then some 26 else if s = "SHM_HUGE_SHIFT" then some 26
  else if s = "MS_MGC_VAL" then some 0xc0ed0000#64 else if s = "IBSHIFT" then some 16 else none

theorem exNames_ok : Names exNames [exTable] := by
  intro t ht e he s hs
  simp at ht
  subst ht
  simp [exTable] at he
  rcases he with rfl | rfl | rfl <;> (simp at hs; subst hs; decide)

example : valueOf exNames (mmapFlags .verbose exTable 0x54000012) = some 0x54000012 :=
  mmap_flags_partial .verbose exTable _ exNames_ok trivial rfl (by simp)
example : mmapFlags .abbrev exTable 0x54000032 =
    [.p (.name "TWO"), .p .bar, .p (.name "SIXTEEN"), .p .bar, .p (.num 0x20), .p .bar,
      .p (.num 21), .shl, .p (.name "MAP_HUGE_SHIFT")] := by decide +kernel
/-- a comment within a comment -/
example : mmapFlags .verbose exTable 3 =
    [.p (.num 3), .p .open_, .p (.num 3), .p (.comment "MAP_???"), .p .close] := by decide +kernel
example : valueOf exNames (mountFlags .abbrev exTable 0xc0ed0012) = some 0xc0ed0012 :=
  mount_flags_partial .abbrev exTable _ exNames_ok rfl (by decide)
example : valueOf exNames (shmgetFlags .abbrev exTable 0x540003a4) = some 0x540003a4 :=
  shmget_flags .abbrev exTable 0x540003a4 exNames_ok rfl rfl
example : valueOf exNames (getFlags .abbrev exTable 0x3a4) = some 0x3a4 :=
  get_flags_partial .abbrev exTable 0x3a4 exNames_ok rfl
    (Or.inr (Or.inr ⟨⟨0x200, some "FIVETWELVE"⟩, by simp [exTable], rfl, by decide, fun i h => h⟩))
/-- `msgget(key, 0x1000 | 0644)` -/
example : getFlags .abbrev exTable 0x11a4 = [.p (.num 0x1000), .p (.num 0x1a4)] := by decide +kernel
example : valueOf exNames (cflag .abbrev exTable exTable exTable 0x2d000022) = some 0x2d000022 :=
  cflag_partial .abbrev exTable exTable exTable _
    (fun t ht => exNames_ok t (by simp at ht ⊢; exact ht)) trivial trivial rfl (by decide)
/-- speed and size only: the text ends in a bar, and a reader cannot tell if something is missing -/
example : cflag .abbrev exTable exTable exTable 0x12 =
      [.p (.name "TWO"), .p .bar, .p (.name "SIXTEEN"), .p .bar] ∧
    valueOf exNames (cflag .abbrev exTable exTable exTable 0x12) = none := by decide +kernel
/-- two codes of filter statements shown alike -/
example (st : Verb) (b : BpfTables) : bpfCode st b false 0x0120 = bpfCode st b false 0x0020 := rfl
example : statusWord (printstatus 0x1057f) = 0x1057f ∧
    printstatus 0x1057f = ⟨.stopped 5 false, some 1, none⟩ := by decide +kernel
example : printstatus 0x12ff = ⟨.number 0x12ff, none, none⟩ := by decide +kernel

end Strace.Pack
