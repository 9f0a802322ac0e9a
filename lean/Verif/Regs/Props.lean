import Verif.Regs.Lemmas
/-!
# A call is read as the kernel has it
-/
namespace Strace.Regs

open Strace.Result (Pers)
open Strace.Regs.Spec

/-! ### One read -/

/-- What a read leaves as it was. -/
structure Calm (pid : Nat) (s s' : St) : Prop where
  insys : ∀ q, (s'.tcbs q).insys = (s.tcbs q).insys
  startup : ∀ q, (s'.tcbs q).startup = (s.tcbs q).startup
  currpers : ∀ q, q ≠ pid → (s'.tcbs q).currpers = (s.tcbs q).currpers
  out : ∃ l : List Line, s'.out = s.out ++ l ∧ l.filter isCall = []

theorem unf_filter (l : List Line) (h : ∀ x ∈ l, isUnf x = true) : l.filter isCall = [] := by
  rw [List.filter_eq_nil_iff]
  intro x hx
  have := h x hx
  cases x <;> simp_all [isUnf, isCall]

theorem Calm.refl (pid : Nat) (s : St) : Calm pid s s := ⟨fun _ => rfl, fun _ => rfl, fun _ _ => rfl, [], by simp, rfl⟩

theorem Calm.trans {pid : Nat} {s s' s'' : St} (h : Calm pid s s') (h' : Calm pid s' s'') : Calm pid s s'' := by
  obtain ⟨l, hl, hf⟩ := h.out
  obtain ⟨l', hl', hf'⟩ := h'.out
  exact ⟨fun q => (h'.insys q).trans (h.insys q), fun q => (h'.startup q).trans (h.startup q),
    fun q hq => (h'.currpers q hq).trans (h.currpers q hq), l ++ l', by rw [hl', hl, List.append_assoc],
    by rw [List.filter_append, hf, hf']; rfl⟩

theorem Same.calm {s s' : St} (h : Same s s') (pid : Nat) : Calm pid s s' := by
  obtain ⟨l, hl, hx⟩ := h.out
  exact ⟨h.insys, h.startup, fun q _ => h.currpers q, l, hl, unf_filter l hx⟩

theorem Took.calm {E : Env} {s s' : St} {pid : Nat} {p : Pers} (h : Took E s s' pid p) : Calm pid s s' := by
  obtain ⟨l, hx, hl⟩ := h.out
  refine ⟨h.insys, h.startup, fun q hq => by rw [h.currpers, if_neg hq], _, hl, ?_⟩
  split
  · rfl
  · rw [List.filter_append, unf_filter l hx]; rfl

theorem RegsOnly.calm {s s' : St} (h : RegsOnly s s') (pid : Nat) : Calm pid s s' :=
  ⟨fun q => by rw [h.tcbs], fun q => by rw [h.tcbs], fun q _ => by rw [h.tcbs], [], by rw [h.out]; simp, rfl⟩

theorem getInfo_calm (E : Env) (s : St) (k : Kern) (pid : Nat) : Calm pid s (getInfo E s k pid).1 := by
  unfold getInfo
  split
  · exact Calm.refl pid s
  · split
    · exact ⟨fun _ => rfl, fun _ => rfl, fun _ _ => rfl, [], by simp, rfl⟩
    · split
      · rename_i i _ _ p _
        have h := (update_took E { s with sci := some i } pid p).calm
        exact ⟨h.insys, h.startup, h.currpers, h.out⟩
      · exact ⟨fun _ => rfl, fun _ => rfl, fun _ _ => rfl, [], by simp, rfl⟩

theorem getSyscallRegs_calm (E : Env) (s : St) (k : Kern) (pid : Nat) : Calm pid s (getSyscallRegs E s k pid).1 := by
  unfold getSyscallRegs
  split
  · exact Calm.refl pid s
  · split
    · split
      · exact getInfo_calm E s k pid
      · split
        · exact getInfo_calm E s k pid
        · exact (getInfo_calm E s k pid).trans ((getRegs_any _ k).calm pid)
    · exact (getRegs_any s k).calm pid

theorem getScno_calm (E : Env) (s : St) (k : Kern) (pid : Nat) : Calm pid s (getScno E s k pid).1 := by
  unfold getScno
  dsimp only
  split
  · exact getSyscallRegs_calm E s k pid
  · split
    · exact getSyscallRegs_calm E s k pid
    · exact (getSyscallRegs_calm E s k pid).trans (update_took E _ pid _).calm

/-! ### The way of reading stays one that works -/

/-- Answers that a history has. -/
def Answers (R : Bool) (k : Kern) : Prop := (∃ (t : Task) (op : Nat), k = t.kern R op) ∨ k = deadKern

theorem getRegs_way (R : Bool) (s : St) (k : Kern) (hk : Answers R k) (hw : WayOk R s) : WayOk R (getRegs s k).1 := by
  by_cases he : s.regsErr = -1
  · rcases hk with ⟨t, op, rfl⟩ | rfl
    · obtain ⟨s', hs, _, _, hw', _⟩ := getRegs_ok s t R op hw he
      rw [hs]; exact hw'
    · unfold WayOk
      rw [(getRegs_dead s he).2]
      exact hw
  · unfold getRegs
    rw [if_pos he]; exact hw

theorem getInfo_way (E : Env) (R : Bool) (s : St) (k : Kern) (pid : Nat) (hw : WayOk R s) :
    WayOk R (getInfo E s k pid).1 := by
  unfold getInfo
  split
  · exact hw
  · split
    · exact hw
    · split
      · unfold WayOk
        rw [(update_took E { s with sci := some _ } pid _).useOld]
        exact hw
      · exact hw

theorem getSyscallRegs_way (E : Env) (R : Bool) (s : St) (k : Kern) (pid : Nat) (hk : Answers R k) (hw : WayOk R s) :
    WayOk R (getSyscallRegs E s k pid).1 := by
  unfold getSyscallRegs
  split
  · exact hw
  · split
    · split
      · exact getInfo_way E R s k pid hw
      · split
        · exact getInfo_way E R s k pid hw
        · exact getRegs_way R _ k hk (getInfo_way E R s k pid hw)
    · exact getRegs_way R s k hk hw

theorem getScno_way (E : Env) (R : Bool) (s : St) (k : Kern) (pid : Nat) (hk : Answers R k) (hw : WayOk R s) :
    WayOk R (getScno E s k pid).1 := by
  have h1 := getSyscallRegs_way E R s k pid hk hw
  unfold getScno
  dsimp only
  split
  · exact h1
  · split
    · exact h1
    · unfold WayOk
      rw [(update_took E _ pid _).useOld]
      exact h1

/-! ### Reading a call -/

/-- The state when a call is about to be read: nothing has been read at this stop, or it has been read already. -/
def Ready (E : Env) (s : St) (t : Task) (op : Nat) (R : Bool) (pid : Nat) : Prop :=
  if E.infoOk then s.regsErr = -1 ∧
    (s.sci = none ∨ (s.sci = (t.kern R op).info ∧ (s.tcbs pid).currpers = t.mode ∧ s.pers = t.mode))
  else s.regsErr = -1 ∨ (s.regsErr = 0 ∧ Loaded s t)

theorem x32_if {α : Type} (v : BitVec 64) (a b : α) :
    (if (x32Bit v && decide (v ≠ BitVec.allOnes 64)) = true then a else b) =
      if v.getLsbD 30 = true ∧ v ≠ -1#64 then a else b := by
  have h : (x32Bit v && decide (v ≠ BitVec.allOnes 64)) = true ↔ v.getLsbD 30 = true ∧ v ≠ -1#64 := by
    rw [Bool.and_eq_true, decide_eq_true_iff]
    rfl
  by_cases hv : v.getLsbD 30 = true ∧ v ≠ -1#64
  · rw [if_pos hv, if_pos (h.2 hv)]
  · rw [if_neg hv, if_neg (fun hh => hv (h.1 hh))]

theorem persOfInfo_mode (t : Task) (R : Bool) (op : Nat) (i : Sci) (hop : op = 1 ∨ op = 3) (h : (t.kern R op).info = some i) :
    persOfInfo i = some t.mode := by
  have hi : i = ⟨op, if t.ia32 then 0x40000003 else 0xC000003E, t.raw, t.argRegs.map t.regs⟩ := by
    unfold Task.kern at h
    exact (Option.some.inj h).symm
  subst hi
  unfold persOfInfo Task.mode
  rw [if_pos (show op = OP_ENTRY ∨ op = OP_SECCOMP from hop)]
  cases t.ia32
  · simp only [AUDIT_ARCH_I386, Bool.false_eq_true, if_false]
    rw [if_neg (by decide), x32_if]
    split <;> rfl
  · simp [AUDIT_ARCH_I386]

theorem shuffle_number (t : Task) : shuffleScno t.mode t.raw = t.number := by
  unfold shuffleScno Task.number
  by_cases h : t.mode = .x32
  · rw [if_pos h, if_pos h]
    apply xor_bit
    unfold Task.mode at h
    split at h
    · cases h
    · split at h
      · rename_i hh; exact hh.1
      · cases h
  · rw [if_neg h, if_neg h]

theorem info_args (E : Env) (t : Task) (R : Bool) (narrow : Bool) (hE : E.infoOk = true) (hr : Readable E R t) :
    (if narrow then (t.argRegs.map t.regs).map zext else t.argRegs.map t.regs) = t.args narrow := by
  unfold Readable at hr
  rw [if_pos hE] at hr
  unfold Task.args
  cases narrow
  · rw [if_neg (by decide)]
    apply List.map_congr_left
    intro r hrr
    by_cases hi : t.ia32 = true
    · rw [if_pos (Or.inl hi), Nat.mod_eq_of_lt (hr hi r hrr)]
      simp
    · rw [if_neg (by rintro (h | h); exact hi h; cases h)]
  · rw [if_pos rfl, List.map_map]
    apply List.map_congr_left
    intro r hrr
    rw [if_pos (Or.inr rfl)]
    exact zext_eq _

theorem getScno_info (E : Env) (s : St) (t : Task) (op : Nat) (R : Bool) (pid : Nat) (hE : E.infoOk = true)
    (hop : op = 1 ∨ op = 3) (hin : (s.tcbs pid).insys = false) (hs : Ready E s t op R pid) :
    ∃ s' : St, getScno E s (t.kern R op) pid = (s', some t.number) ∧ s'.pers = t.mode ∧ (s'.tcbs pid).currpers = t.mode ∧
      s'.sci = (t.kern R op).info ∧ s'.regsErr = -1 := by
  unfold Ready at hs
  rw [if_pos hE] at hs
  obtain ⟨he, hs⟩ := hs
  -- the state once the information is there
  have key : ∃ s' : St, getInfo E s (t.kern R op) pid = (s', true) ∧ s'.pers = t.mode ∧ (s'.tcbs pid).currpers = t.mode ∧
      s'.sci = (t.kern R op).info ∧ s'.regsErr = -1 ∧ (s'.tcbs pid).insys = false := by
    rcases hs with hs | ⟨hs, hc, hp⟩
    · obtain ⟨i, hi⟩ : ∃ i : Sci, (t.kern R op).info = some i := ⟨_, rfl⟩
      have hp := persOfInfo_mode t R op i hop hi
      have ht := update_took E { s with sci := some i } pid t.mode
      refine ⟨updatePersonality E { s with sci := some i } pid t.mode, ?_, ht.pers, ?_, ?_, ?_, ?_⟩
      · unfold getInfo
        rw [hs, hi]
        dsimp only
        rw [hp]
      · rw [ht.currpers, if_pos rfl]
      · rw [ht.sci, hi]
      · rw [ht.regsErr]; exact he
      · rw [ht.insys]; exact hin
    · refine ⟨s, ?_, hp, hc, hs, he, hin⟩
      unfold getInfo
      rw [hs]
      rfl
  obtain ⟨s', hg, hp, hc, hsci, he', hin'⟩ := key
  have hentry : isEntry E s' = true := by
    unfold isEntry
    rw [hE, hsci]
    rcases hop with rfl | rfl <;> rfl
  have hregs : getSyscallRegs E s (t.kern R op) pid = (s', 0) := by
    unfold getSyscallRegs
    rw [if_neg (by rw [he]; decide), if_pos hE, hg]
    dsimp only
    rw [if_neg (by decide), hin', hentry]
    rfl
  refine ⟨s', ?_, hp, hc, hsci, he'⟩
  unfold getScno
  rw [hregs]
  dsimp only
  rw [if_neg (by decide), if_pos hentry, hsci, hp]
  have : (t.kern R op).info.map (fun i => shuffleScno t.mode i.nr) = some (shuffleScno t.mode t.raw) := rfl
  rw [this, shuffle_number]

theorem loaded_scno (s : St) (t : Task) (hl : Loaded s t) (hi : t.ia32 = t.cs32) (ho : (t.regs 15).toNat < 2 ^ 31) :
    scnoInRegs s = (t.mode, t.raw) := by
  obtain ⟨h1, h2⟩ := setWidth_small _ ho
  have hraw : t.raw = t.regs 15 := h1
  unfold Loaded at hl
  unfold scnoInRegs Task.mode
  rw [hi]
  cases hc : t.cs32
  · rw [hc] at hl
    obtain ⟨hiov, hr⟩ := hl
    rw [if_neg (by rw [hiov]; decide)]
    have h15 : r64 s.mem iORIG = t.regs 15 := hr 15 (by omega)
    rw [h15, hraw]
    rw [x32_if, if_neg (show ¬ (false = true) by decide)]
    split <;> rfl
  · rw [hc] at hl
    obtain ⟨hiov, hr⟩ := hl
    rw [if_pos hiov]
    have h11 : r32 s.mem jORIG = lo (t.regs 15) := hr (11, 15) (by simp)
    rw [h11, hraw]
    unfold lo
    rw [h2]
    rfl

theorem loaded_args (s : St) (t : Task) (narrow : Bool) (hl : Loaded s t) (hi : t.ia32 = t.cs32) :
    argsInRegs s narrow = t.args narrow := by
  unfold Loaded at hl
  unfold argsInRegs Task.args Task.argRegs
  rw [hi]
  cases hc : t.cs32
  · rw [hc] at hl
    obtain ⟨hiov, hr⟩ := hl
    rw [if_pos (by rw [hiov]; decide)]
    have e1 : r64 s.mem iRDI = t.regs 14 := hr 14 (by omega)
    have e2 : r64 s.mem iRSI = t.regs 13 := hr 13 (by omega)
    have e3 : r64 s.mem iRDX = t.regs 12 := hr 12 (by omega)
    have e4 : r64 s.mem iR10 = t.regs 7 := hr 7 (by omega)
    have e5 : r64 s.mem iR8 = t.regs 9 := hr 9 (by omega)
    have e6 : r64 s.mem iR9 = t.regs 8 := hr 8 (by omega)
    rw [e1, e2, e3, e4, e5, e6]
    cases narrow
    · simp
    · simp [zext_eq]
  · rw [hc] at hl
    obtain ⟨hiov, hr⟩ := hl
    rw [if_neg (by rw [hiov]; decide)]
    have e1 : r32 s.mem jEBX = lo (t.regs 5) := hr (0, 5) (by simp)
    have e2 : r32 s.mem jECX = lo (t.regs 11) := hr (1, 11) (by simp)
    have e3 : r32 s.mem jEDX = lo (t.regs 12) := hr (2, 12) (by simp)
    have e4 : r32 s.mem jESI = lo (t.regs 13) := hr (3, 13) (by simp)
    have e5 : r32 s.mem jEDI = lo (t.regs 14) := hr (4, 14) (by simp)
    have e6 : r32 s.mem jEBP = lo (t.regs 4) := hr (5, 4) (by simp)
    have z : ∀ x : BitVec 64, (lo x).setWidth 64 = BitVec.ofNat 64 (x.toNat % 2 ^ 32) := zext_eq
    simp only [List.map_cons, List.map_nil, e1, e2, e3, e4, e5, e6, z, if_true, true_or]

theorem isEntry_no (E : Env) (s : St) (hE : E.infoOk = false) : isEntry E s = false := by
  unfold isEntry; rw [hE]; rfl

theorem getScno_regs (E : Env) (s : St) (t : Task) (op : Nat) (R : Bool) (pid : Nat) (hE : E.infoOk = false)
    (hw : WayOk R s) (hr : Readable E R t) (hs : Ready E s t op R pid) :
    ∃ s' : St, getScno E s (t.kern R op) pid = (s', some t.number) ∧ s'.pers = t.mode ∧ (s'.tcbs pid).currpers = t.mode ∧
      s'.regsErr = 0 ∧ Loaded s' t := by
  unfold Readable at hr
  rw [if_neg (by rw [hE]; decide)] at hr
  obtain ⟨hi, ho, hcs⟩ := hr
  unfold Ready at hs
  rw [if_neg (by rw [hE]; decide)] at hs
  have key : ∃ s' : St, getSyscallRegs E s (t.kern R op) pid = (s', 0) ∧ Loaded s' t ∧ s'.regsErr = 0 := by
    unfold getSyscallRegs
    rcases hs with he | ⟨he, hl⟩
    · rw [if_neg (by rw [he]; decide), if_neg (by rw [hE]; decide)]
      obtain ⟨s', h1, h2, _, _, h5⟩ := getRegs_ok s t R op hw he
      exact ⟨s', h1, h2 hcs, h5⟩
    · rw [if_pos (by rw [he]; decide)]
      exact ⟨s, by rw [he], hl, he⟩
  obtain ⟨s', hg, hl, he⟩ := key
  have hsc := loaded_scno s' t hl hi ho
  have ht := update_took E s' pid t.mode
  refine ⟨updatePersonality E s' pid t.mode, ?_, ht.pers, ?_, ?_, ?_⟩
  · unfold getScno
    rw [hg]
    dsimp only
    rw [if_neg (by decide), if_neg (by rw [isEntry_no E s' hE]; decide), hsc]
    dsimp only
    rw [ht.pers, shuffle_number]
  · rw [ht.currpers, if_pos rfl]
  · rw [ht.regsErr]; exact he
  · unfold Loaded
    rw [ht.iov, ht.mem]
    exact hl

/-- A call is read as it is, and can be read again at the same stop. -/
theorem getScno_read (E : Env) (s : St) (t : Task) (op : Nat) (R : Bool) (pid : Nat) (hop : op = 1 ∨ op = 3)
    (hw : WayOk R s) (hin : (s.tcbs pid).insys = false) (hr : Readable E R t) (hs : Ready E s t op R pid) :
    ∃ s' : St, getScno E s (t.kern R op) pid = (s', some t.number) ∧ s'.pers = t.mode ∧ (s'.tcbs pid).currpers = t.mode ∧
      Ready E s' t op R pid ∧ getArgs E s' t.number = t.args (E.cst t.mode t.number) := by
  cases hE : E.infoOk
  · obtain ⟨s', h1, h2, h3, h4, h5⟩ := getScno_regs E s t op R pid hE hw hr hs
    refine ⟨s', h1, h2, h3, ?_, ?_⟩
    · unfold Ready
      rw [if_neg (by rw [hE]; decide)]
      exact Or.inr ⟨h4, h5⟩
    · unfold getArgs
      rw [if_neg (by rw [isEntry_no E s' hE]; decide), h2]
      unfold Readable at hr
      rw [if_neg (by rw [hE]; decide)] at hr
      exact loaded_args s' t _ h5 hr.1
  · obtain ⟨s', h1, h2, h3, h4, h5⟩ := getScno_info E s t op R pid hE hop hin hs
    refine ⟨s', h1, h2, h3, ?_, ?_⟩
    · unfold Ready
      rw [if_pos hE]
      exact ⟨h5, Or.inr ⟨h4, h3, h2⟩⟩
    · have hentry : isEntry E s' = true := by
        unfold isEntry
        rw [hE, h4]
        rcases hop with rfl | rfl <;> rfl
      unfold getArgs
      rw [if_pos hentry, h4, h2]
      exact info_args E t R _ hE hr

end Strace.Regs
