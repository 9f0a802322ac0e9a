import Verif.Lead.Lemmas
/-!
# C98: the beginning of a line tells whose line it is, and when
-/
namespace Strace.Lead
open Strace.Base

theorem commText_head (x : Quote.XStyle) (l : List Nat) (hl : l ≠ []) : ∃ u, commText x l = 60 :: u := by
  unfold commText; rw [if_neg hl]; exact ⟨_, rfl⟩

theorem pidShown_iff (c : Cfg) (e : Ev) : pidShown c e = true ↔ (c.pidPfx = true ∨ (1 < e.nprocs ∧ c.outf = false)) := by
  unfold pidShown; simp

/-- the text before a pid -/
def PidMark (l : List Nat) : Prop := [91, 112, 105, 100, 32] <+: l

theorem readPid_text (c : Cfg) (e : Ev) (r : List Nat) (h : OkComm e.comm)
    (hr : c.pidPfx = false → c.outf = false → ¬ 1 < e.nprocs → ¬ PidMark r) :
    readPid c (pidText c e ++ r) =
      ((if c.pidPfx = true ∨ (1 < e.nprocs ∧ c.outf = false) then some e.pid else none,
        if (c.pidPfx = true ∨ (1 < e.nprocs ∧ c.outf = false)) ∧ c.comm = true then e.comm else []), r) := by
  unfold pidText
  by_cases hs : c.pidPfx = true ∨ (1 < e.nprocs ∧ c.outf = false)
  · rw [if_pos ((pidShown_iff c e).mpr hs), if_pos hs]
    dsimp only
    have hcm : (if (c.pidPfx = true ∨ (1 < e.nprocs ∧ c.outf = false)) ∧ c.comm = true then e.comm else []) =
        if c.comm = true then e.comm else [] := by simp only [hs, true_and]
    rw [hcm]
    have hok : OkComm (if c.comm = true then e.comm else []) := by
      split
      · exact h
      · intro b hb; cases hb
    generalize (if c.comm = true then e.comm else []) = cm at hok
    by_cases hp : c.pidPfx = true
    · simp only [if_pos hp]
      unfold readPid
      rw [if_pos hp]
      dsimp only
      by_cases hc : cm = []
      · subst hc
        have ht : (if ([] : List Nat) = [] then padR 5 e.pid else dec e.pid) ++ commText c.x [] ++ [] ++ [32] ++ r =
            dec e.pid ++ (List.replicate (5 - (dec e.pid).length) 32 ++ 32 :: r) := by
          rw [if_pos rfl]; unfold padR commText; simp
        rw [ht]
        have hnd : NoDigit (List.replicate (5 - (dec e.pid).length) 32 ++ 32 :: r) := by
          cases 5 - (dec e.pid).length with
          | zero => exact noDigit_cons 32 r (Or.inl (by omega))
          | succ k => rw [List.replicate_succ]; exact noDigit_cons 32 _ (Or.inl (by omega))
        have hh : (List.replicate (5 - (dec e.pid).length) 32 ++ 32 :: r).head? ≠ some 60 := by
          cases 5 - (dec e.pid).length with
          | zero => simp
          | succ k => rw [List.replicate_succ]; simp
        rw [digits_run _ _ (dec_digit _) hnd, afterDigits_run _ _ (dec_digit _) hnd, readComm_none _ hh, readDec_dec,
          if_pos rfl]
        congr 1
        rw [show List.replicate (5 - (dec e.pid).length) 32 ++ 32 :: r = List.replicate (5 - (dec e.pid).length + 1) 32 ++ r by
          rw [List.replicate_succ']; simp]
        rw [List.drop_append_of_le_length (by simp)]
        simp
      · have ht : (if cm = [] then padR 5 e.pid else dec e.pid) ++ commText c.x cm ++ [] ++ [32] ++ r =
            dec e.pid ++ (commText c.x cm ++ 32 :: r) := by
          rw [if_neg hc]; simp
        rw [ht]
        have hnd : NoDigit (commText c.x cm ++ 32 :: r) := by
          obtain ⟨u, hu⟩ := commText_head c.x cm hc
          rw [hu]; exact noDigit_cons 60 _ (Or.inr (by omega))
        rw [digits_run _ _ (dec_digit _) hnd, afterDigits_run _ _ (dec_digit _) hnd, readComm_some _ _ _ hok hc, readDec_dec,
          if_neg hc]
        rfl
    · simp only [if_neg hp]
      have hs' : 1 < e.nprocs ∧ c.outf = false := hs.resolve_left hp
      have ht : [91, 112, 105, 100, 32] ++ padL 5 e.pid ++ commText c.x cm ++ [93] ++ [32] ++ r =
          [91, 112, 105, 100, 32] ++ (List.replicate (5 - (dec e.pid).length) 32 ++ (dec e.pid ++ (commText c.x cm ++ 93 :: 32 :: r))) := by
        unfold padL; simp
      rw [ht]
      unfold readPid
      rw [if_neg hp, if_pos ⟨hs'.2, List.prefix_append _ _⟩]
      dsimp only
      rw [show List.drop 5 ([91, 112, 105, 100, 32] ++
          (List.replicate (5 - (dec e.pid).length) 32 ++ (dec e.pid ++ (commText c.x cm ++ 93 :: 32 :: r)))) =
          List.replicate (5 - (dec e.pid).length) 32 ++ (dec e.pid ++ (commText c.x cm ++ 93 :: 32 :: r)) from rfl]
      have hsp : (dec e.pid ++ (commText c.x cm ++ 93 :: 32 :: r)).head? ≠ some 32 := by
        obtain ⟨a, u, hd, ha⟩ := dec_head e.pid
        rw [hd]; simp; omega
      rw [skipSp_run _ _ hsp]
      by_cases hc : cm = []
      · subst hc
        have hz : commText c.x [] = [] := rfl
        rw [hz, List.nil_append]
        have hnd : NoDigit (93 :: 32 :: r) := noDigit_cons 93 _ (Or.inr (by omega))
        rw [digits_run _ _ (dec_digit _) hnd, afterDigits_run _ _ (dec_digit _) hnd, readComm_none _ (by simp), readDec_dec]
        rfl
      · have hnd : NoDigit (commText c.x cm ++ 93 :: 32 :: r) := by
          obtain ⟨u, hu⟩ := commText_head c.x cm hc
          rw [hu]; exact noDigit_cons 60 _ (Or.inr (by omega))
        rw [digits_run _ _ (dec_digit _) hnd, afterDigits_run _ _ (dec_digit _) hnd, readComm_some _ _ _ hok hc, readDec_dec]
        rfl
  · have hp : c.pidPfx = false := by
      cases hh : c.pidPfx
      · rfl
      · exact absurd (Or.inl hh) hs
    rw [if_neg (fun hh => hs ((pidShown_iff c e).mp hh)), if_neg hs, if_neg (fun hh => hs hh.1), List.nil_append]
    unfold readPid
    rw [if_neg (by simp [hp]), if_neg]
    rintro ⟨ho, hm⟩
    exact hr hp ho (fun hn => hs (Or.inr ⟨hn, ho⟩)) hm

/-- the text of the whole seconds -/
theorem stamp_chars (clock : Int → Option (List Nat)) (hk : OkClock clock) (unix : Bool) (s : Int) :
    ∀ ch ∈ (if unix = true then decI s else (clock s).getD (decI s)), ch = 45 ∨ 48 ≤ ch ∧ ch ≤ 58 := by
  intro ch hch
  have hd : ∀ ch ∈ decI s, ch = 45 ∨ 48 ≤ ch ∧ ch ≤ 58 := fun ch hh => by
    rcases decI_chars s ch hh with h | h
    · exact Or.inl h
    · exact Or.inr (by omega)
  split at hch
  · exact hd ch hch
  · cases hc : clock s with
    | none => rw [hc] at hch; exact hd ch hch
    | some t => rw [hc] at hch; exact Or.inr (hk s t hc ch hch)

theorem readStamp_text (clock : Int → Option (List Nat)) (hk : OkClock clock) (c : Cfg) (e : Ev) (hp : OkPrec c.t)
    (hn : Time.Norm e.real) (r : List Nat) :
    readStamp c (stampText clock c e ++ r) =
      (c.tflag.map fun unix => (if unix = true then decI e.real.sec else (clock e.real.sec).getD (decI e.real.sec),
        parts c.t e.real.nsec), r) := by
  unfold readStamp stampText
  cases ht : c.tflag with
  | none => rfl
  | some unix =>
    rw [if_neg (by simp)]
    dsimp only [Option.map_some]
    have hch := stamp_chars clock hk unix e.real.sec
    generalize (if unix = true then decI e.real.sec else (clock e.real.sec).getD (decI e.real.sec)) = s at hch
    rw [show s ++ fracText c.t e.real.nsec ++ [32] ++ r = s ++ (fracText c.t e.real.nsec ++ 32 :: r) by simp]
    have h1 : List.takeWhile (fun ch => decide (ch ≠ 46 ∧ ch ≠ 32)) (s ++ (fracText c.t e.real.nsec ++ 32 :: r)) = s := by
      apply takeWhile_run
      · intro ch hc
        have := hch ch hc
        simp; omega
      · intro ch hc
        unfold fracText at hc
        split at hc
        · cases hc; rfl
        · cases hc; rfl
    rw [h1, List.drop_left]
    rw [readFrac_text c.t hp _ hn _ (noDigit_cons 32 r (Or.inl (by omega)))]
    rfl

theorem readRel_text (c : Cfg) (d : Time.Ts) (hp : OkPrec c.r) (hn : Time.Norm d) (r : List Nat) :
    readRel c (relText c d ++ r) = (if c.rflag = true then some (d.sec, parts c.r d.nsec) else none, r) := by
  unfold readRel relText
  by_cases hr : c.rflag = true
  · rw [if_pos hr, if_pos hr, if_pos hr]
    have key : ∀ tail : List Nat, NoDigit tail →
        readInt (skipSp (padI 6 d.sec ++ (fracText c.r d.nsec ++ tail))) = (d.sec, fracText c.r d.nsec ++ tail) := by
      intro tail htl
      obtain ⟨a, u, hd, ha⟩ := decI_head d.sec
      unfold padI
      rw [List.append_assoc, skipSp_run _ _ (by rw [hd]; simp; omega)]
      apply readInt_decI
      rcases fracText_head c.r d.nsec tail with h | h
      · intro ch hc; rw [h] at hc; cases hc; rfl
      · rw [h]; exact htl
    by_cases ht : c.tflag ≠ none
    · simp only [if_pos ht]
      rw [show [40, 43] ++ padI 6 d.sec ++ fracText c.r d.nsec ++ [41, 32] ++ r =
        40 :: 43 :: (padI 6 d.sec ++ (fracText c.r d.nsec ++ 41 :: 32 :: r)) by simp]
      rw [show List.drop 2 (40 :: 43 :: (padI 6 d.sec ++ (fracText c.r d.nsec ++ 41 :: 32 :: r))) =
        padI 6 d.sec ++ (fracText c.r d.nsec ++ 41 :: 32 :: r) from rfl]
      rw [key _ (noDigit_cons 41 _ (Or.inl (by omega)))]
      dsimp only
      rw [readFrac_text c.r hp _ hn _ (noDigit_cons 41 _ (Or.inl (by omega)))]
      rfl
    · simp only [if_neg ht]
      rw [show [] ++ padI 6 d.sec ++ fracText c.r d.nsec ++ [32] ++ r =
        padI 6 d.sec ++ (fracText c.r d.nsec ++ 32 :: r) by simp]
      rw [key _ (noDigit_cons 32 _ (Or.inl (by omega)))]
      dsimp only
      rw [readFrac_text c.r hp _ hn _ (noDigit_cons 32 _ (Or.inl (by omega)))]
      rfl
  · rw [if_neg hr, if_neg hr, if_neg hr]; rfl

theorem bracket (t r : List Nat) (h : ∀ ch ∈ t, ch ≠ 93) :
    upTo 93 ([91] ++ t ++ [93, 32] ++ r).tail = t ∧ (from_ 93 ([91] ++ t ++ [93, 32] ++ r).tail).drop 2 = r := by
  have ht : ([91] ++ t ++ [93, 32] ++ r).tail = t ++ 93 :: 32 :: r := by simp
  rw [ht]
  constructor
  · exact takeWhile_run _ _ _ (fun c hc => by simp [h c hc]) (fun c hc => by cases hc; rfl)
  · rw [show from_ 93 (t ++ 93 :: 32 :: r) = 93 :: 32 :: r from
      dropWhile_run _ _ _ (fun c hc => by simp [h c hc]) (fun c hc => by cases hc; rfl)]
    rfl

theorem padL_chars (w n : Nat) : ∀ ch ∈ padL w n, ch = 32 ∨ 48 ≤ ch ∧ ch ≤ 57 := by
  intro ch hc
  rcases List.mem_append.mp hc with h | h
  · exact Or.inl (List.eq_of_mem_replicate h)
  · exact Or.inr (dec_digit n ch h)

theorem padL_ne_nil (w n : Nat) : padL w n ≠ [] := by
  unfold padL; simp [dec_ne_nil]

theorem readNr_text (c : Cfg) (e : Ev) (r : List Nat) :
    readNr c (nrText c e ++ r) = (if c.nflag = true then some e.nr else none, r) := by
  unfold readNr nrText
  by_cases hn : c.nflag = true
  · rw [if_pos hn, if_pos hn, if_pos hn]
    cases he : e.nr with
    | none =>
      dsimp only
      obtain ⟨h1, h2⟩ := bracket [63, 63, 63] r (by simp)
      rw [h1, h2]; rfl
    | some n =>
      dsimp only
      obtain ⟨h1, h2⟩ := bracket (padL 4 n) r (fun ch hc => by have := padL_chars 4 n ch hc; omega)
      rw [h1, h2, if_neg]
      · obtain ⟨a, u, hd, ha⟩ := dec_head n
        unfold padL
        have : skipSp (List.replicate (4 - (dec n).length) 32 ++ dec n) = dec n := skipSp_run _ _ (by rw [hd]; simp; omega)
        rw [this, readDec_dec]
      · intro hh
        have := padL_chars 4 n 63 (List.mem_of_head? hh)
        omega
  · rw [if_neg hn, if_neg hn, if_neg hn]; rfl

theorem readIp_text (c : Cfg) (e : Ev) (r : List Nat) :
    readIp c (ipText c e ++ r) = (if c.iflag = true then some e.ip else none, r) := by
  unfold readIp ipText
  by_cases hn : c.iflag = true
  · rw [if_pos hn, if_pos hn, if_pos hn]
    cases he : e.ip with
    | none =>
      dsimp only
      obtain ⟨h1, h2⟩ := bracket (List.replicate (if e.w4 = true then 8 else 16) 63) r
        (fun ch hc => by rw [List.eq_of_mem_replicate hc]; omega)
      rw [h1, h2, if_pos]
      cases e.w4 <;> rfl
    | some n =>
      dsimp only
      obtain ⟨h1, h2⟩ := bracket (hexPad (if e.w4 = true then 8 else 16) n) r
        (fun ch hc => by have := hexPad_chars _ n ch hc; unfold HexCh at this; omega)
      rw [h1, h2, if_neg, readHex_hexPad]
      intro hh
      have := hexPad_chars _ n 63 (List.mem_of_head? hh)
      unfold HexCh at this; omega
  · rw [if_neg hn, if_neg hn, if_neg hn]; rfl

/-! ### Lines without a pid do not look like lines with one -/

theorem mark_cons (a : Nat) (l : List Nat) (h : a ≠ 91) : ¬ PidMark (a :: l) := by
  rintro ⟨t, ht⟩
  exact h (List.cons.inj ht).1.symm

theorem mark_cons2 (a b : Nat) (l : List Nat) (h : b ≠ 112) : ¬ PidMark (a :: b :: l) := by
  rintro ⟨t, ht⟩
  exact h (List.cons.inj (List.cons.inj ht).2).1.symm

theorem mark_ip (c : Cfg) (e : Ev) (r : List Nat) (h : ¬ PidMark r) : ¬ PidMark (ipText c e ++ r) := by
  unfold ipText
  by_cases hn : c.iflag = true
  · rw [if_pos hn]
    cases he : e.ip with
    | none =>
      dsimp only
      cases e.w4 <;> exact mark_cons2 91 63 _ (by omega)
    | some n =>
      dsimp only
      cases hx : hexPad (if e.w4 = true then 8 else 16) n with
      | nil => exact absurd hx (hexPad_ne_nil _ n)
      | cons a u =>
        have := hexPad_chars _ n a (by rw [hx]; simp)
        exact mark_cons2 91 a _ (by unfold HexCh at this; omega)
  · rw [if_neg hn]; exact h

theorem mark_nr (c : Cfg) (e : Ev) (r : List Nat) (h : ¬ PidMark r) : ¬ PidMark (nrText c e ++ r) := by
  unfold nrText
  by_cases hn : c.nflag = true
  · rw [if_pos hn]
    cases he : e.nr with
    | none => exact mark_cons2 91 63 _ (by omega)
    | some n =>
      dsimp only
      cases hx : padL 4 n with
      | nil => exact absurd hx (padL_ne_nil _ n)
      | cons a u =>
        have := padL_chars 4 n a (by rw [hx]; simp)
        exact mark_cons2 91 a _ (by omega)
  · rw [if_neg hn]; exact h

theorem padI_head (x : Int) : ∃ a u, padI 6 x = a :: u ∧ a ≠ 91 := by
  obtain ⟨a, u, hd, ha⟩ := decI_head x
  unfold padI
  cases 6 - (decI x).length with
  | zero => exact ⟨a, u, hd, by omega⟩
  | succ k => exact ⟨32, _, rfl, by omega⟩

theorem mark_rel (c : Cfg) (d : Time.Ts) (r : List Nat) (h : ¬ PidMark r) : ¬ PidMark (relText c d ++ r) := by
  unfold relText
  by_cases hn : c.rflag = true
  · rw [if_pos hn]
    by_cases ht : c.tflag ≠ none
    · rw [if_pos ht]; exact mark_cons 40 _ (by omega)
    · rw [if_neg ht]
      obtain ⟨a, u, hd, ha⟩ := padI_head d.sec
      rw [hd]
      exact mark_cons a _ ha
  · rw [if_neg hn]; exact h

theorem mark_stamp (clock : Int → Option (List Nat)) (hk : OkClock clock) (c : Cfg) (e : Ev) (r : List Nat) (h : ¬ PidMark r) :
    ¬ PidMark (stampText clock c e ++ r) := by
  unfold stampText
  cases ht : c.tflag with
  | none => exact h
  | some unix =>
    dsimp only
    have hch := stamp_chars clock hk unix e.real.sec
    generalize (if unix = true then decI e.real.sec else (clock e.real.sec).getD (decI e.real.sec)) = s at hch
    cases s with
    | nil =>
      unfold fracText
      by_cases hw : c.t.width ≠ 0
      · rw [if_pos hw]; exact mark_cons 46 _ (by omega)
      · rw [if_neg hw]; exact mark_cons 32 _ (by omega)
    | cons a u =>
      have := hch a (by simp)
      exact mark_cons a _ (by omega)

/-! ### C98 -/

/-- C98: whatever is asked for, and whatever follows, the beginning of a line can be read: the pid with the name of the task, the time
stamp, the difference, the number of the call and the address are those of the event, and what follows is the rest of the line. -/
theorem lead_read (clock : Int → Option (List Nat)) (hk : OkClock clock) (c : Cfg) (ht : OkPrec c.t) (hr : OkPrec c.r) (e : Ev)
    (hc : OkComm e.comm) (hn : Time.Norm e.real) (d : Time.Ts) (hd : Time.Norm d) (r : List Nat) (hm : ¬ [91, 112, 105, 100, 32] <+: r) :
    read c (leadText clock c e d ++ r) = (toTell clock c e d, r) := by
  unfold leadText read
  simp only [List.append_assoc]
  rw [readPid_text c e _ hc (fun _ _ _ => mark_stamp clock hk c e _ (mark_rel c d _ (mark_nr c e _ (mark_ip c e r hm))))]
  dsimp only
  rw [readStamp_text clock hk c e ht hn]
  dsimp only
  rw [readRel_text c d hr hd]
  dsimp only
  rw [readNr_text]
  dsimp only
  rw [readIp_text]
  rfl

/-- A line without a pid is a line of the only tracee there is, or goes to a file of its own or of one process only. -/
theorem no_pid (clock : Int → Option (List Nat)) (c : Cfg) (e : Ev) (d : Time.Ts) (h : (toTell clock c e d).pid = none) :
    c.pidPfx = false ∧ (e.nprocs ≤ 1 ∨ c.outf = true) := by
  unfold toTell at h
  dsimp only at h
  split at h
  · cases h
  · rename_i hh
    refine ⟨?_, ?_⟩
    · cases hp : c.pidPfx
      · rfl
      · exact absurd (Or.inl hp) hh
    · by_cases h1 : e.nprocs ≤ 1
      · exact Or.inl h1
      · cases ho : c.outf
        · exact absurd (Or.inr ⟨by omega, ho⟩) hh
        · exact Or.inr rfl

/-! ### The hypotheses are met -/

/-- all options at once -/
def someCfg : Cfg := ⟨false, false, true, .none, some false, ⟨6, 1000⟩, true, ⟨3, 1000000⟩, true, true⟩

/-- a tracee with a name that has brackets in it -/
def someEv : Ev := ⟨2, 42, [97, 62, 32], ⟨3600, 1999⟩, ⟨5, 0⟩, some 1, some 255, false⟩

/-- [pid    42<a\76 >] 01:00:00.000001 (+     2.500) [   1] [00000000000000ff] -/
example : leadText (fun _ => some [48, 49, 58, 48, 48, 58, 48, 48]) someCfg someEv ⟨2, 500000000⟩ =
    "[pid    42<a\\76 >] 01:00:00.000001 (+     2.500) [   1] [00000000000000ff] ".toList.map Char.toNat := by decide +kernel

example : OkClock (fun _ => some [48, 49, 58, 48, 48, 58, 48, 48]) := by
  intro s t h ch hc
  cases h
  revert ch
  decide +kernel
example : OkPrec someCfg.t ∧ OkPrec someCfg.r := by unfold OkPrec; decide +kernel
example : OkComm someEv.comm := by unfold OkComm; decide +kernel
example : Time.Norm someEv.real := by unfold Time.Norm; decide +kernel
/-- what follows is the name of a call, or `<... `, `---` or `+++` -/
example : ¬ [91, 112, 105, 100, 32] <+: [114, 101, 97, 100, 40] := by decide +kernel

/-- one tracee, no pid -/
example : (toTell (fun _ => none) someCfg { someEv with nprocs := 1 } ⟨0, 0⟩).pid = none := by decide +kernel

end Strace.Lead
