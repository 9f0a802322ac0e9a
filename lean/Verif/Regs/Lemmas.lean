import Verif.Regs.Spec
/-!
# Lemmas about reading a system call
-/
namespace Strace.Regs

open Strace.Result (Pers)
open Strace.Regs.Spec

/-! ### Registers -/

theorem r64_load (m : Mem) (w : Nat → BitVec 64) (n : Nat) (h : n < 27) : r64 (load64 m w) n = w n := by
  have h1 : (2 * n + 1) % 2 = 1 := by omega
  have h2 : (2 * n) % 2 = 0 := by omega
  have h3 : (2 * n + 1) / 2 = n := by omega
  have h4 : (2 * n) / 2 = n := by omega
  have h5 : 2 * n + 1 < 54 := by omega
  have h6 : 2 * n < 54 := by omega
  unfold r64 load64
  rw [if_pos h5, if_pos h6, if_pos h2, if_neg (by omega : ¬ (2 * n + 1) % 2 = 0), h3, h4]
  unfold hi lo
  apply BitVec.eq_of_toNat_eq
  have hw := (w n).isLt
  rw [BitVec.toNat_append]
  simp only [BitVec.toNat_setWidth, BitVec.toNat_ushiftRight]
  rw [Nat.shiftRight_eq_div_pow, Nat.mod_eq_of_lt (a := (w n).toNat / 2 ^ 32) (by omega), ← Nat.shiftLeft_add_eq_or_of_lt (by omega),
    Nat.shiftLeft_eq]
  omega

/-- The small structure, as filled from the large one. -/
theorem overlay_reg (m : Mem) (j n : Nat)
    (h : (j, n) ∈ [(0, 5), (1, 11), (2, 12), (3, 13), (4, 14), (5, 4), (6, 10), (11, 15), (12, 16), (15, 19)]) :
    r32 (overlay m) j = lo (r64 m n) := by
  simp only [List.mem_cons, List.mem_nil_iff, or_false, Prod.mk.injEq] at h
  rcases h with ⟨rfl, rfl⟩ | ⟨rfl, rfl⟩ | ⟨rfl, rfl⟩ | ⟨rfl, rfl⟩ | ⟨rfl, rfl⟩ | ⟨rfl, rfl⟩ | ⟨rfl, rfl⟩ | ⟨rfl, rfl⟩ |
    ⟨rfl, rfl⟩ | ⟨rfl, rfl⟩ <;>
  · simp only [overlay, r32, put, jEBX, jECX, jEDX, jESI, jEDI, jEBP, jEAX, jORIG, jEIP, jESP, iRBX, iRCX, iRDX, iRSI, iRDI,
      iRBP, iRAX, iORIG, iRIP, iRSP, r64, lo]
    simp [BitVec.setWidth_append]

/-! ### What showing things leaves as it was -/

/-- Lines that a leader may add. -/
def isUnf : Line → Bool
  | .unfinished _ => true
  | _ => false

/-- The same, except for the mode in force, the current tracee, columns and lines about unfinished calls. -/
structure Same (s s' : St) : Prop where
  sci : s'.sci = s.sci
  regsErr : s'.regsErr = s.regsErr
  useOld : s'.useOld = s.useOld
  iov : s'.iov = s.iov
  mem : s'.mem = s.mem
  currpers : ∀ q, (s'.tcbs q).currpers = (s.tcbs q).currpers
  insys : ∀ q, (s'.tcbs q).insys = (s.tcbs q).insys
  startup : ∀ q, (s'.tcbs q).startup = (s.tcbs q).startup
  grabbed : ∀ q, (s'.tcbs q).grabbed = (s.tcbs q).grabbed
  out : ∃ l : List Line, s'.out = s.out ++ l ∧ ∀ x ∈ l, isUnf x = true

theorem Same.refl (s : St) : Same s s :=
  ⟨rfl, rfl, rfl, rfl, rfl, fun _ => rfl, fun _ => rfl, fun _ => rfl, fun _ => rfl, [], by simp, by simp⟩

theorem Same.trans {s s' s'' : St} (h : Same s s') (h' : Same s' s'') : Same s s'' := by
  obtain ⟨l, hl, hx⟩ := h.out
  obtain ⟨l', hl', hx'⟩ := h'.out
  refine ⟨h'.sci.trans h.sci, h'.regsErr.trans h.regsErr, h'.useOld.trans h.useOld, h'.iov.trans h.iov,
    h'.mem.trans h.mem, fun q => (h'.currpers q).trans (h.currpers q), fun q => (h'.insys q).trans (h.insys q),
    fun q => (h'.startup q).trans (h.startup q), fun q => (h'.grabbed q).trans (h.grabbed q), l ++ l', ?_, ?_⟩
  · rw [hl', hl, List.append_assoc]
  · intro x hx''
    rcases List.mem_append.1 hx'' with h1 | h1
    · exact hx x h1
    · exact hx' x h1

theorem setMid_same (s : St) (pid : Nat) (b : Bool) : Same s (setMid s pid b) := by
  refine ⟨rfl, rfl, rfl, rfl, rfl, ?_, ?_, ?_, ?_, [], by simp [setMid, upd], by simp⟩ <;>
  · intro q
    simp only [setMid, upd]
    split <;> rfl

theorem setCurrent_same (s : St) (pid : Nat) : Same s (setCurrent s pid) :=
  ⟨rfl, rfl, rfl, rfl, rfl, fun _ => rfl, fun _ => rfl, fun _ => rfl, fun _ => rfl, [], by simp [setCurrent, setPersonality],
    by simp⟩

theorem endOther_same (E : Env) (s : St) (pid : Nat) : Same s (endOther E s pid) := by
  unfold endOther
  split
  · exact Same.refl s
  · split
    · refine ⟨rfl, rfl, rfl, rfl, rfl, ?_, ?_, ?_, ?_, [.unfinished _], rfl, by simp [isUnf]⟩ <;>
      · intro q
        simp only [upd, emit, setCurrent, setPersonality]
        split <;> rfl
    · exact Same.refl s

theorem printleader_same (E : Env) (s : St) (pid : Nat) : Same s (printleader E s pid) := by
  have h1 := endOther_same E s pid
  refine h1.trans ?_
  refine ⟨rfl, rfl, rfl, rfl, rfl, ?_, ?_, ?_, ?_, [], by simp [printleader, upd, setCurrent, setPersonality], by simp⟩ <;>
  · intro q
    simp only [printleader, upd, setCurrent, setPersonality]
    split <;> rfl

theorem printleader_pers (E : Env) (s : St) (pid : Nat) : (printleader E s pid).pers = (s.tcbs pid).currpers :=
  (endOther_same E s pid).currpers pid

theorem lineEnded_same (s : St) : Same s (lineEnded s) := by
  unfold lineEnded
  have h1 : ∀ s1 : St, Same s1 (match s1.printing with
      | some q => { setMid s1 q false with printing := none }
      | none => s1) := by
    intro s1
    split
    · rename_i q _
      have h := setMid_same s1 q false
      exact ⟨rfl, rfl, rfl, rfl, rfl, h.currpers, h.insys, h.startup, h.grabbed, h.out⟩
    · exact Same.refl s1
  split
  · exact (setMid_same s _ false).trans (h1 _)
  · exact h1 s

theorem lineEnded_pers (s : St) : (lineEnded s).pers = s.pers := by
  unfold lineEnded
  have h1 : ∀ s1 : St, (match s1.printing with
      | some q => { setMid s1 q false with printing := none }
      | none => s1).pers = s1.pers := by
    intro s1
    split <;> rfl
  split
  · exact (h1 _).trans rfl
  · exact h1 s

theorem lineEnded_out (s : St) : (lineEnded s).out = s.out := by
  unfold lineEnded
  have h1 : ∀ s1 : St, (match s1.printing with
      | some q => { setMid s1 q false with printing := none }
      | none => s1).out = s1.out := by
    intro s1
    split <;> rfl
  split
  · exact (h1 _).trans rfl
  · exact h1 s

/-! ### Taking a mode -/

/-- What `update_personality` does. -/
structure Took (E : Env) (s s' : St) (pid : Nat) (p : Pers) : Prop where
  pers : s'.pers = p
  sci : s'.sci = s.sci
  regsErr : s'.regsErr = s.regsErr
  useOld : s'.useOld = s.useOld
  iov : s'.iov = s.iov
  mem : s'.mem = s.mem
  currpers : ∀ q, (s'.tcbs q).currpers = if q = pid then p else (s.tcbs q).currpers
  insys : ∀ q, (s'.tcbs q).insys = (s.tcbs q).insys
  startup : ∀ q, (s'.tcbs q).startup = (s.tcbs q).startup
  grabbed : ∀ q, (s'.tcbs q).grabbed = (s.tcbs q).grabbed
  out : ∃ l : List Line, (∀ x ∈ l, isUnf x = true) ∧
    s'.out = s.out ++ (if p = (s.tcbs pid).currpers ∨ E.quiet = true then [] else l ++ [.mode pid p])

theorem update_took (E : Env) (s : St) (pid : Nat) (p : Pers) : Took E s (updatePersonality E s pid p) pid p := by
  unfold updatePersonality
  by_cases hp : p = ((setPersonality s p).tcbs pid).currpers
  · rw [if_pos hp]
    refine ⟨rfl, rfl, rfl, rfl, rfl, rfl, ?_, fun _ => rfl, fun _ => rfl, fun _ => rfl, [], by simp, ?_⟩
    · intro q
      by_cases hq : q = pid
      · subst hq; rw [if_pos rfl]; exact hp.symm
      · rw [if_neg hq]; rfl
    · rw [if_pos (show p = (s.tcbs pid).currpers ∨ E.quiet = true from Or.inl hp)]; simp [setPersonality]
  · rw [if_neg hp]
    have hp' : ¬ p = (s.tcbs pid).currpers := hp
    by_cases hq : E.quiet = true
    · rw [if_pos hq]
      refine ⟨rfl, rfl, rfl, rfl, rfl, rfl, ?_, ?_, ?_, ?_, [], by simp, ?_⟩
      · intro q
        simp only [upd, setPersonality]
        split <;> rfl
      · intro q
        simp only [upd, setPersonality]
        split <;> rfl
      · intro q
        simp only [upd, setPersonality]
        split <;> rfl
      · intro q
        simp only [upd, setPersonality]
        split <;> rfl
      · rw [if_pos (Or.inr hq)]; simp [setPersonality, upd]
    · rw [if_neg hq]
      generalize hs2 : (upd (setPersonality s p) pid fun t => { t with currpers := p }) = s2
      have hc2 : ∀ q, (s2.tcbs q).currpers = if q = pid then p else (s.tcbs q).currpers := by
        intro q; subst hs2; simp only [upd, setPersonality]; split <;> rfl
      have hi2 : ∀ q, (s2.tcbs q).insys = (s.tcbs q).insys := by
        intro q; subst hs2; simp only [upd, setPersonality]; split <;> rfl
      have hst2 : ∀ q, (s2.tcbs q).startup = (s.tcbs q).startup := by
        intro q; subst hs2; simp only [upd, setPersonality]; split <;> rfl
      have hg2 : ∀ q, (s2.tcbs q).grabbed = (s.tcbs q).grabbed := by
        intro q; subst hs2; simp only [upd, setPersonality]; split <;> rfl
      have hl := printleader_same E s2 pid
      have he := lineEnded_same (emit (printleader E s2 pid) (.mode pid p))
      obtain ⟨l, hlo, hlx⟩ := hl.out
      refine ⟨?_, ?_, ?_, ?_, ?_, ?_, ?_, ?_, ?_, ?_, l, hlx, ?_⟩
      · rw [lineEnded_pers]
        show (printleader E s2 pid).pers = p
        rw [printleader_pers, hc2, if_pos rfl]
      · exact he.sci.trans (hl.sci.trans (by subst hs2; rfl))
      · exact he.regsErr.trans (hl.regsErr.trans (by subst hs2; rfl))
      · exact he.useOld.trans (hl.useOld.trans (by subst hs2; rfl))
      · exact he.iov.trans (hl.iov.trans (by subst hs2; rfl))
      · exact he.mem.trans (hl.mem.trans (by subst hs2; rfl))
      · intro q; exact (he.currpers q).trans ((hl.currpers q).trans (hc2 q))
      · intro q; exact (he.insys q).trans ((hl.insys q).trans (hi2 q))
      · intro q; exact (he.startup q).trans ((hl.startup q).trans (hst2 q))
      · intro q; exact (he.grabbed q).trans ((hl.grabbed q).trans (hg2 q))
      · rw [lineEnded_out, if_neg (by rintro (h | h); exact hp' h; exact hq h)]
        show (printleader E s2 pid).out ++ [Line.mode pid p] = _
        rw [hlo, ← List.append_assoc]
        subst hs2; rfl

/-! ### Registers of a task -/

/-- The registers of a task have been read. -/
def Loaded (s : St) (t : Task) : Prop :=
  if t.cs32 then s.iov = 68 ∧ ∀ jn ∈ [(0, 5), (1, 11), (2, 12), (3, 13), (4, 14), (5, 4), (11, 15)], r32 s.mem jn.1 = lo (t.regs jn.2)
  else s.iov = 216 ∧ ∀ n, n < 27 → r64 s.mem n = t.regs n

/-- The same, except for registers and the way they are read. -/
structure RegsOnly (s s' : St) : Prop where
  pers : s'.pers = s.pers
  sci : s'.sci = s.sci
  cur : s'.cur = s.cur
  printing : s'.printing = s.printing
  tcbs : s'.tcbs = s.tcbs
  out : s'.out = s.out

/-- The way registers are read is one that works. -/
def WayOk (R : Bool) (s : St) : Prop := if R then s.useOld ≤ 0 else 0 ≤ s.useOld

theorem regset_small (t : Task) (m : Mem) (h : t.cs32 = true) (jn : Nat × Nat)
    (hj : jn ∈ [(0, 5), (1, 11), (2, 12), (3, 13), (4, 14), (5, 4), (11, 15)]) :
    r32 (load32 m fun j => (t.regs (smallRegs.getD j 0)).setWidth 32) jn.1 = lo (t.regs jn.2) := by
  simp only [List.mem_cons, List.mem_nil_iff, or_false] at hj
  rcases hj with rfl | rfl | rfl | rfl | rfl | rfl | rfl <;> rfl

theorem getregset_ok (s : St) (t : Task) (op : Nat) :
    ∃ s', ptraceGetregset s (t.kern true op) = (s', 0) ∧ Loaded s' t ∧ RegsOnly s s' ∧ s'.useOld = s.useOld ∧
      s'.regsErr = s.regsErr := by
  unfold ptraceGetregset Task.kern Task.regset
  cases hc : t.cs32
  · refine ⟨_, rfl, ?_, ⟨rfl, rfl, rfl, rfl, rfl, rfl⟩, rfl, rfl⟩
    unfold Loaded
    rw [hc]
    exact ⟨rfl, fun n hn => r64_load _ _ n hn⟩
  · refine ⟨_, rfl, ?_, ⟨rfl, rfl, rfl, rfl, rfl, rfl⟩, rfl, rfl⟩
    unfold Loaded
    rw [hc]
    exact ⟨rfl, fun jn hj => regset_small t _ hc jn hj⟩

theorem getregsOld_ok (s : St) (t : Task) (R : Bool) (op : Nat) :
    ∃ s', getregsOld s (t.kern R op) = (s', 0) ∧ ((t.regs 17 = 0x23#64 ↔ t.cs32 = true) → Loaded s' t) ∧ RegsOnly s s' ∧
      s'.useOld = s.useOld := by
  unfold getregsOld Task.kern
  show ∃ s', (if r64 (load64 s.mem t.regs) 17 = 0x23#64 then _ else _) = (s', 0) ∧ _
  rw [r64_load s.mem t.regs 17 (by omega)]
  by_cases hc : t.regs 17 = 0x23#64
  · rw [if_pos hc]
    refine ⟨_, rfl, ?_, ⟨rfl, rfl, rfl, rfl, rfl, rfl⟩, rfl⟩
    intro h
    unfold Loaded
    rw [h.1 hc]
    refine ⟨rfl, ?_⟩
    intro jn hj
    show r32 (overlay (load64 s.mem t.regs)) jn.1 = _
    have hn : jn.2 < 27 := by
      simp only [List.mem_cons, List.mem_nil_iff, or_false] at hj
      rcases hj with rfl | rfl | rfl | rfl | rfl | rfl | rfl <;> decide
    rw [overlay_reg _ jn.1 jn.2, r64_load _ _ _ hn]
    simp only [List.mem_cons, List.mem_nil_iff, or_false] at hj ⊢
    rcases hj with rfl | rfl | rfl | rfl | rfl | rfl | rfl <;> simp
  · rw [if_neg hc]
    refine ⟨_, rfl, ?_, ⟨rfl, rfl, rfl, rfl, rfl, rfl⟩, rfl⟩
    intro h
    unfold Loaded
    have : t.cs32 = false := by
      cases hh : t.cs32
      · rfl
      · exact absurd (h.2 hh) hc
    rw [this]
    exact ⟨rfl, fun n hn => r64_load _ _ n hn⟩

theorem getRegs_ok (s : St) (t : Task) (R : Bool) (op : Nat) (hw : WayOk R s) (he : s.regsErr = -1) :
    ∃ s', getRegs s (t.kern R op) = (s', 0) ∧ ((R = false → (t.regs 17 = 0x23#64 ↔ t.cs32 = true)) → Loaded s' t) ∧ RegsOnly s s' ∧ WayOk R s' ∧ s'.regsErr = 0 := by
  unfold getRegs
  rw [if_neg (by rw [he]; decide)]
  cases R
  · -- no register sets
    have hw' : 0 ≤ s.useOld := by simpa [WayOk] using hw
    have hg : (ptraceGetregset s (t.kern false op)) = ({ s with iov := 216 }, -1) := rfl
    rw [if_neg (by omega)]
    by_cases h0 : s.useOld = 0
    · rw [if_pos h0, hg, if_neg (by show ¬ ((-1 : Int) ≥ 0); decide), if_neg (by show ¬ (false = true); decide)]
      obtain ⟨s', hs, hl, hr, hu⟩ := getregsOld_ok { { s with iov := 216 } with useOld := 1 } t false op
      rw [hs]
      refine ⟨_, rfl, fun h => hl (h rfl), ⟨hr.pers, hr.sci, hr.cur, hr.printing, hr.tcbs, hr.out⟩, ?_, rfl⟩
      show (0 : Int) ≤ s'.useOld
      rw [hu]; show (0 : Int) ≤ 1; decide
    · rw [if_neg h0]
      obtain ⟨s', hs, hl, hr, hu⟩ := getregsOld_ok s t false op
      rw [hs]
      refine ⟨_, rfl, fun h => hl (h rfl), ⟨hr.pers, hr.sci, hr.cur, hr.printing, hr.tcbs, hr.out⟩, ?_, rfl⟩
      show (0 : Int) ≤ s'.useOld
      rw [hu]; exact hw'
  · have hw' : s.useOld ≤ 0 := by simpa [WayOk] using hw
    obtain ⟨s', hs, hl, hr, hu, _⟩ := getregset_ok s t op
    by_cases h0 : s.useOld = 0
    · rw [if_neg (by omega), if_pos h0, hs, if_pos (by show (0 : Int) ≥ 0; decide)]
      refine ⟨_, rfl, fun _ => hl, ⟨hr.pers, hr.sci, hr.cur, hr.printing, hr.tcbs, hr.out⟩, ?_, rfl⟩
      show (-1 : Int) ≤ 0
      decide
    · rw [if_pos (by omega), hs]
      refine ⟨_, rfl, fun _ => hl, ⟨hr.pers, hr.sci, hr.cur, hr.printing, hr.tcbs, hr.out⟩, ?_, rfl⟩
      show s'.useOld ≤ 0
      rw [hu]; exact hw'

/-- Whatever the kernel answers, only the registers change. -/
theorem getRegs_any (s : St) (k : Kern) : RegsOnly s (getRegs s k).1 := by
  have hset : ∀ s : St, RegsOnly s (ptraceGetregset s k).1 := by
    intro s
    unfold ptraceGetregset
    split <;> exact ⟨rfl, rfl, rfl, rfl, rfl, rfl⟩
  have hold : ∀ s : St, RegsOnly s (getregsOld s k).1 := by
    intro s
    unfold getregsOld
    split
    · exact ⟨rfl, rfl, rfl, rfl, rfl, rfl⟩
    · dsimp only
      split <;> exact ⟨rfl, rfl, rfl, rfl, rfl, rfl⟩
  have hk : ∀ (s : St) (r : St × Int), RegsOnly s r.1 → RegsOnly s (keepErr r).1 := by
    intro s r h
    exact ⟨h.pers, h.sci, h.cur, h.printing, h.tcbs, h.out⟩
  unfold getRegs
  split
  · exact ⟨rfl, rfl, rfl, rfl, rfl, rfl⟩
  · split
    · exact hk s _ (hset s)
    · split
      · split
        · have h := hset s
          exact hk s _ ⟨h.pers, h.sci, h.cur, h.printing, h.tcbs, h.out⟩
        · split
          · exact hk s _ (hset s)
          · have h := hset s
            have h' := hold { (ptraceGetregset s k).1 with useOld := 1 }
            exact hk s _ ⟨h'.pers.trans h.pers, h'.sci.trans h.sci, h'.cur.trans h.cur, h'.printing.trans h.printing,
              h'.tcbs.trans h.tcbs, h'.out.trans h.out⟩
      · exact hk s _ (hold s)

theorem getRegs_dead (s : St) (he : s.regsErr = -1) :
    (getRegs s deadKern).2 = -1 ∧ (getRegs s deadKern).1.useOld = s.useOld := by
  unfold getRegs
  rw [if_neg (by rw [he]; decide)]
  by_cases h0 : s.useOld < 0
  · rw [if_pos h0]; exact ⟨rfl, rfl⟩
  · rw [if_neg h0]
    by_cases h1 : s.useOld = 0
    · rw [if_pos h1, if_neg (by show ¬ ((-1 : Int) ≥ 0); decide), if_pos (show deadKern.gone = true from rfl)]
      exact ⟨rfl, rfl⟩
    · rw [if_neg h1]; exact ⟨rfl, rfl⟩

/-! ### Number and arguments -/

theorem setWidth_small (x : BitVec 64) (h : x.toNat < 2 ^ 31) :
    ((x.setWidth 32).signExtend 64 = x) ∧ (x.setWidth 32).setWidth 64 = x := by
  have h1 : (x.setWidth 32).toNat = x.toNat := by
    rw [BitVec.toNat_setWidth]; exact Nat.mod_eq_of_lt (by omega)
  have h2 : (x.setWidth 32).msb = false := by
    rw [BitVec.msb_eq_false_iff_two_mul_lt, h1]; omega
  constructor
  · rw [BitVec.signExtend_eq_setWidth_of_msb_false h2]
    apply BitVec.eq_of_toNat_eq
    rw [BitVec.toNat_setWidth, h1]
    exact Nat.mod_eq_of_lt (by omega)
  · apply BitVec.eq_of_toNat_eq
    rw [BitVec.toNat_setWidth, h1]
    exact Nat.mod_eq_of_lt (by omega)

theorem zext_eq (x : BitVec 64) : zext x = BitVec.ofNat 64 (x.toNat % 2 ^ 32) := by
  apply BitVec.eq_of_toNat_eq
  unfold zext lo
  rw [BitVec.toNat_setWidth, BitVec.toNat_setWidth, BitVec.toNat_ofNat]

theorem xor_bit (x : BitVec 64) (h : x.getLsbD 30 = true) : x ^^^ 0x40000000#64 = x - 0x40000000#64 := by
  have h1 : x = (x ^^^ 0x40000000#64) + 0x40000000#64 := by
    rw [BitVec.add_eq_or_of_and_eq_zero]
    · apply BitVec.eq_of_getLsbD_eq
      intro i hi
      rw [BitVec.getLsbD_or, BitVec.getLsbD_xor]
      by_cases h30 : i = 30
      · subst h30; rw [h]; decide
      · have : (0x40000000#64).getLsbD i = false := by
          have h2 : (0x40000000#64 : BitVec 64) = BitVec.twoPow 64 30 := by decide
          rw [h2, BitVec.getLsbD_twoPow]
          simp; omega
        rw [this]; simp
    · apply BitVec.eq_of_getLsbD_eq
      intro i hi
      rw [BitVec.getLsbD_and, BitVec.getLsbD_xor]
      by_cases h30 : i = 30
      · subst h30; rw [h]; decide
      · have : (0x40000000#64).getLsbD i = false := by
          have h2 : (0x40000000#64 : BitVec 64) = BitVec.twoPow 64 30 := by decide
          rw [h2, BitVec.getLsbD_twoPow]
          simp; omega
        rw [this]; simp
  have h2 := BitVec.add_sub_cancel (x ^^^ 0x40000000#64) 0x40000000#64
  rw [← h1] at h2
  exact h2.symm

end Strace.Regs
