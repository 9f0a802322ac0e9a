import Verif.Gram.Spec
/-!
# C113: what is printed of the arguments is well formed, whatever memory can be read
-/
set_option linter.unusedSimpArgs false
namespace Strace.Gram
open Tok

theorem run_append (s : S) (a b : List Tok) : run s (a ++ b) = (run s a).bind fun s' => run s' b := by
  induction a generalizing s with
  | nil => rfl
  | cons t r ih =>
    simp only [List.cons_append, run]
    cases step s t with
    | none => rfl
    | some s' => simpa using ih s'

theorem place_o : place .opened = some none := rfl
theorem place_s : place .start = some none := rfl
theorem place_a (n : Option String) : place (.again n) = some n := rfl
theorem place_n (n : String) : place (.named n) = some (some n) := rfl

/-- tokens that make up one value -/
def IsVal (t : List Tok) : Prop :=
  ∀ (st : List (Bool × Option String)) (m : Mode) (c : Nat) (n : Option String) (rest : List Tok), place m = some n →
    run ⟨st, m, c⟩ (t ++ rest) = run ⟨st, .full n, c⟩ rest

theorem isVal_plain (i : Nat) : IsVal (plain i) := by
  intro st m c n rest h
  simp [plain, run, step, h]

theorem members_run (e : Nat → List Tok) (h : ∀ i, IsVal (e i)) (k : Nat) (st : List (Bool × Option String)) (c : Nat) (rest : List Tok)
    (hs : st ≠ []) : run ⟨st, .opened, c⟩ (members e k ++ rest) = run ⟨st, .full none, c⟩ rest := by
  induction k generalizing rest with
  | zero => exact h 0 st .opened c none rest rfl
  | succ k ih =>
    simp only [members, List.append_assoc, List.cons_append]
    rw [ih]
    simp only [run, step, if_neg hs, Option.bind]
    exact h (k + 1) st .start c none rest rfl

theorem isVal_arr (e : Nat → List Tok) (h : ∀ i, IsVal (e i)) (a : Arr) : IsVal (arr e a) := by
  intro st m c n rest hp
  match a with
  | .value => simp [arr, run, step, hp]
  | .members 0 more => cases more <;> simp [arr, opt, run, step, hp, close, place_o, place_s, place_a, place_n]
  | .members (k + 1) more =>
    simp only [arr, List.append_assoc, List.cons_append, run, step, hp, Option.map, Option.bind]
    rw [members_run e h k _ _ _ (by simp)]
    cases more <;> simp [opt, run, step, close, place_o, place_s, place_a, place_n]

theorem run_arr (e : Nat → List Tok) (h : ∀ i, IsVal (e i)) (a : Arr) (st : List (Bool × Option String)) (m : Mode) (c : Nat)
    (n : Option String) (rest : List Tok) (hp : place m = some n) :
    run ⟨st, m, c⟩ (arr e a ++ rest) = run ⟨st, .full n, c⟩ rest := isVal_arr e h a st m c n rest hp

/-- the place of an array is after a name in what follows -/
theorem run_arr_n (e : Nat → List Tok) (h : ∀ i, IsVal (e i)) (a : Arr) (st : List (Bool × Option String)) (x : String) (c : Nat)
    (rest : List Tok) : run ⟨st, .named x, c⟩ (arr e a ++ rest) = run ⟨st, .full (some x), c⟩ rest :=
  isVal_arr e h a st (.named x) c (some x) rest rfl

theorem run_cons (s : S) (t : Tok) (r : List Tok) : run s (t :: r) = (step s t).bind fun s' => run s' r := rfl

theorem run_nil (s : S) : run s [] = some s := rfl
theorem val_o (st : List (Bool × Option String)) (c : Nat) (r : List Tok) :
    run ⟨st, .opened, c⟩ (val :: r) = run ⟨st, .full none, c⟩ r := rfl
theorem so_o (st : List (Bool × Option String)) (c : Nat) (r : List Tok) :
    run ⟨st, .opened, c⟩ (so :: r) = run ⟨(true, none) :: st, .opened, c⟩ r := rfl
theorem ao_o (st : List (Bool × Option String)) (c : Nat) (r : List Tok) :
    run ⟨st, .opened, c⟩ (ao :: r) = run ⟨(false, none) :: st, .opened, c⟩ r := rfl
theorem val_s (st : List (Bool × Option String)) (c : Nat) (r : List Tok) :
    run ⟨st, .start, c⟩ (val :: r) = run ⟨st, .full none, c⟩ r := rfl
theorem so_s (st : List (Bool × Option String)) (c : Nat) (r : List Tok) :
    run ⟨st, .start, c⟩ (so :: r) = run ⟨(true, none) :: st, .opened, c⟩ r := rfl
theorem ao_s (st : List (Bool × Option String)) (c : Nat) (r : List Tok) :
    run ⟨st, .start, c⟩ (ao :: r) = run ⟨(false, none) :: st, .opened, c⟩ r := rfl
theorem val_a (st : List (Bool × Option String)) (c : Nat) (r : List Tok) (n : Option String) :
    run ⟨st, (.again n), c⟩ (val :: r) = run ⟨st, .full n, c⟩ r := rfl
theorem so_a (st : List (Bool × Option String)) (c : Nat) (r : List Tok) (n : Option String) :
    run ⟨st, (.again n), c⟩ (so :: r) = run ⟨(true, n) :: st, .opened, c⟩ r := rfl
theorem ao_a (st : List (Bool × Option String)) (c : Nat) (r : List Tok) (n : Option String) :
    run ⟨st, (.again n), c⟩ (ao :: r) = run ⟨(false, n) :: st, .opened, c⟩ r := rfl
theorem val_n (st : List (Bool × Option String)) (c : Nat) (r : List Tok) (n : String) :
    run ⟨st, (.named n), c⟩ (val :: r) = run ⟨st, .full (some n), c⟩ r := rfl
theorem so_n (st : List (Bool × Option String)) (c : Nat) (r : List Tok) (n : String) :
    run ⟨st, (.named n), c⟩ (so :: r) = run ⟨(true, (some n)) :: st, .opened, c⟩ r := rfl
theorem ao_n (st : List (Bool × Option String)) (c : Nat) (r : List Tok) (n : String) :
    run ⟨st, (.named n), c⟩ (ao :: r) = run ⟨(false, (some n)) :: st, .opened, c⟩ r := rfl
theorem val_f (st : List (Bool × Option String)) (c : Nat) (r : List Tok) (n : Option String) :
    run ⟨st, .full n, c⟩ (val :: r) = none := rfl
theorem sc_o (st : List (Bool × Option String)) (c : Nat) (r : List Tok) (n : Option String) :
    run ⟨(true, n) :: st, .opened, c⟩ (sc :: r) = run ⟨st, .full n, c⟩ r := rfl
theorem sc_f (st : List (Bool × Option String)) (c : Nat) (r : List Tok) (n m : Option String) :
    run ⟨(true, n) :: st, .full m, c⟩ (sc :: r) = run ⟨st, .full n, c⟩ r := rfl
theorem ac_o (st : List (Bool × Option String)) (c : Nat) (r : List Tok) (n : Option String) :
    run ⟨(false, n) :: st, .opened, c⟩ (ac :: r) = run ⟨st, .full n, c⟩ r := rfl
theorem ac_f (st : List (Bool × Option String)) (c : Nat) (r : List Tok) (n m : Option String) :
    run ⟨(false, n) :: st, .full m, c⟩ (ac :: r) = run ⟨st, .full n, c⟩ r := rfl
theorem name_o (st : List (Bool × Option String)) (c : Nat) (r : List Tok) (n : Option String) (x : String) :
    run ⟨(true, n) :: st, .opened, c⟩ (name x :: r) = run ⟨(true, n) :: st, .named x, c⟩ r := rfl
theorem name_s (st : List (Bool × Option String)) (c : Nat) (r : List Tok) (n : Option String) (x : String) :
    run ⟨(true, n) :: st, .start, c⟩ (name x :: r) = run ⟨(true, n) :: st, .named x, c⟩ r := rfl
theorem name_a (st : List (Bool × Option String)) (c : Nat) (r : List Tok) (n : Option String) (x y : String) :
    run ⟨(true, n) :: st, .again (some y), c⟩ (name x :: r) = if x = y then run ⟨(true, n) :: st, .named y, c⟩ r else none := by
  rw [run_cons]; simp only [step]; split <;> rfl
theorem next_c (st : List (Bool × Option String)) (c : Nat) (r : List Tok) (k : Bool × Option String) (n : Option String) :
    run ⟨k :: st, .full n, c⟩ (next :: r) = run ⟨k :: st, .start, c⟩ r := rfl
theorem next_e (c : Nat) (r : List Tok) (n : Option String) :
    run ⟨[], .full n, c⟩ (next :: r) = run ⟨[], .start, c + 1⟩ r := rfl
theorem changed_f (st : List (Bool × Option String)) (c : Nat) (r : List Tok) (n : Option String) :
    run ⟨st, .full n, c⟩ (changed :: r) = run ⟨st, .again n, c⟩ r := rfl

/-- runs the reader over tokens that are known -/
macro "read" : tactic => `(tactic| simp [WellFormed, ioctl, Gram.st, fs, f, nf, opt, run_nil, val_o, so_o, ao_o, val_s, so_s, ao_s, val_a, so_a, ao_a, val_n, so_n, ao_n, val_f, sc_o, sc_f, ac_o, ac_f, name_o, name_s, name_a, next_c, next_e, changed_f])

/-- the same over structures that are values -/
macro "readv" : tactic =>
  `(tactic| (intro st m c n rest h
             cases m <;> simp only [place, Option.some.injEq, reduceCtorEq] at h <;>
               (subst h; simp [Gram.st, fs, f, nf, opt, run_nil, val_o, so_o, ao_o, val_s, so_s, ao_s, val_a, so_a, ao_a, val_n, so_n, ao_n, val_f, sc_o, sc_f, ac_o, ac_f, name_o, name_s, name_a, next_c, next_e, changed_f])))

theorem isVal_teeParam (kind : Nat → Nat) (i : Nat) : IsVal (teeParam kind i) := by
  unfold teeParam
  by_cases h0 : kind i = 0
  · rw [if_pos h0]; readv
  · rw [if_neg h0]
    by_cases h1 : kind i = 1
    · rw [if_pos h1]; readv
    · rw [if_neg h1]; readv

theorem isVal_ifreq (i : Nat) : IsVal (ifreq i) := by unfold ifreq; readv

theorem isVal_lsmCtx (ctx : Nat → Bool) (i : Nat) : IsVal (lsmCtx ctx i) := by
  unfold lsmCtx; cases ctx i <;> readv

theorem isVal_extControl (str : Nat → Bool) (i : Nat) : IsVal (v4l2ExtControl str i) := by
  unfold v4l2ExtControl; cases str i <;> readv

theorem isVal_ptpTime (r : Bool) : IsVal (ptpTime r) := by
  unfold ptpTime; cases r <;> readv

theorem isVal_ptpTime3 (r : Nat → Bool) (i : Nat) : IsVal (ptpTime3 r i) := by
  unfold ptpTime3 ptpTime
  cases r (3 * i) <;> cases r (3 * i + 1) <;> cases r (3 * i + 2) <;> readv

theorem isVal_unipair (i : Nat) : IsVal (unipair i) := by unfold unipair; readv
theorem isVal_fiemapExtent (i : Nat) : IsVal (fiemapExtent i) := by unfold fiemapExtent; readv
theorem isVal_dedupeIn (i : Nat) : IsVal (dedupeIn i) := by unfold dedupeIn; readv
theorem isVal_dedupeOut (i : Nat) : IsVal (dedupeOut i) := by unfold dedupeOut; readv

/-! ## Decoders that are right -/

theorem nameToHandleAt_wf (e : Option Nat) (failed overflow : Bool) (x : Option Nat) :
    WellFormed 5 (nameToHandleAt e failed overflow x) := by
  cases e with
  | none => simp only [nameToHandleAt]; read
  | some n =>
    cases x with
    | none => simp only [nameToHandleAt]; read
    | some m =>
      simp only [nameToHandleAt]
      cases hm : (m != n) <;> cases failed <;> cases overflow <;> read

theorem kdKeycode_wf (get readable failed readable' : Bool) : WellFormed 3 (ioctl (kdKeycode get readable failed readable')) := by
  unfold kdKeycode
  cases get <;> cases readable <;> cases failed <;> cases readable' <;> read

theorem kdKbdrep_wf (readable failed readable' : Bool) : WellFormed 3 (ioctl (kdKbdrep readable failed readable')) := by
  unfold kdKbdrep
  cases readable <;> cases failed <;> cases readable' <;> read

theorem kdFontx_wf (get readable failed readable' : Bool) : WellFormed 3 (ioctl (kdFontx get readable failed readable')) := by
  unfold kdFontx
  cases get <;> cases readable <;> cases failed <;> cases readable' <;> read

theorem teeShm_wf (readable failed readable' : Bool) :
    WellFormed 3 (ioctl (teeShm ["size", "flags"] ["size", "flags", "id"] readable failed readable')) ∧
    WellFormed 3 (ioctl (teeShm ["fd", "flags"] ["size", "id"] readable failed readable')) ∧
    WellFormed 3 (ioctl (teeShm ["addr", "length", "flags"] ["length", "flags", "id"] readable failed readable')) := by
  unfold teeShm
  refine ⟨?_, ?_, ?_⟩ <;> cases readable <;> cases failed <;> cases readable' <;> read

theorem isVal_fontOp (b : Bool) (op : Nat) : IsVal (fontOp b op) := by
  unfold fontOp
  by_cases h2 : op = 2
  · subst h2; cases b <;> readv
  · by_cases h3 : op = 3
    · subst h3; cases b <;> readv
    · simp only [h2, h3, if_false, bne_iff_ne, ne_eq, not_false_eq_true, decide_true]
      have e2 : (op != 2) = true := by simp [h2]
      have e3 : (op != 3) = true := by simp [h3]
      simp only [e2, e3]
      cases b <;> readv

theorem kdFontOp_wf (e : Option Nat) (failed : Bool) (x : Option Nat) : WellFormed 3 (ioctl (kdFontOp e failed x)) := by
  cases e with
  | none => simp only [kdFontOp]; read
  | some op =>
    simp only [kdFontOp, WellFormed, ioctl, List.cons_append, List.nil_append, run_cons, step, place_s, Option.map, Option.bind]
    rw [isVal_fontOp true op _ _ _ none _ rfl]
    by_cases h : op = 0 ∨ op = 3
    · rw [if_pos h]; rfl
    · rw [if_neg h]
      cases failed with
      | true => rfl
      | false =>
        cases x with
        | none => rfl
        | some op' =>
          simp only [Bool.false_eq_true, if_false, run_cons, step, Option.bind]
          have := isVal_fontOp false op' [] (.again none) 3 none [] rfl
          rw [List.append_nil] at this
          exact this

/-- runs the reader over tokens with arrays of values in them -/
macro "reada" "[" ts:term,* "]" : tactic =>
  `(tactic| simp [WellFormed, ioctl, Gram.st, fs, f, nf, opt, run_nil, val_o, so_o, ao_o, val_s, so_s, ao_s, val_a, so_a, ao_a, val_n, so_n, ao_n, val_f, sc_o, sc_f, ac_o, ac_f, name_o, name_s, name_a, next_c, next_e, changed_f, run_arr_n _ isVal_plain, $[run_arr_n _ $ts],*])

theorem queryBpf_wf (readable failed readable' : Bool) (ids : Arr) : WellFormed 3 (ioctl (queryBpf readable failed readable' ids)) := by
  unfold queryBpf
  cases readable <;> cases failed <;> cases readable' <;> reada []

theorem ifconf_wf (e : Option Ifconf) (failed : Bool) (x : Option Ifconf) (reqs : Arr) : WellFormed 3 (ioctl (ifconf e failed x reqs)) := by
  cases e with
  | none => simp only [ifconf]; read
  | some e =>
    have hb : (e.buf != 0) = !(e.buf == 0) := rfl
    cases x with
    | none =>
      simp only [ifconf, hb]
      cases (e.buf == 0) <;> read
    | some x =>
      simp only [ifconf, hb]
      cases (e.buf == 0) <;> cases (e.len != x.len) <;> cases (e.buf != x.buf) <;> cases failed <;> reada [isVal_ifreq]

theorem v4l2Format_wf (get : Bool) (e : Option (Option String)) (whole failed : Bool) (x : Option (Option String)) :
    WellFormed 3 (ioctl (v4l2Format get e whole failed x)) := by
  rcases e with _ | _ | n <;> rcases x with _ | _ | n' <;> simp only [v4l2Format] <;> cases get <;> cases whole <;> cases failed <;> read

theorem v4l2Requestbuffers_wf (readable failed readable' : Bool) : WellFormed 3 (ioctl (v4l2Requestbuffers readable failed readable')) := by
  unfold v4l2Requestbuffers
  cases readable <;> cases failed <;> cases readable' <;> read

theorem v4l2Streamparm_wf (get : Bool) (e : Option (Option String)) (failed : Bool) (x : Option String) :
    WellFormed 3 (ioctl (v4l2Streamparm get e failed x)) := by
  rcases e with _ | _ | n <;> rcases x with _ | n' <;> simp only [v4l2Streamparm] <;> cases get <;> cases failed <;> read

theorem v4l2Tuner_wf (get readable failed readable' : Bool) : WellFormed 3 (ioctl (v4l2Tuner get readable failed readable')) := by
  unfold v4l2Tuner
  cases get <;> cases readable <;> cases failed <;> cases readable' <;> read

theorem v4l2Queryctrl_wf (e : Option Nat) (failed : Bool) (x : Option Nat) (brief : Bool) (res : Option Arr) :
    WellFormed 3 (ioctl (v4l2Queryctrl e failed x brief res)) := by
  cases e with
  | none => simp only [v4l2Queryctrl]; read
  | some id =>
    cases x with
    | none => simp only [v4l2Queryctrl]; cases failed <;> read
    | some id' =>
      cases res <;> simp only [v4l2Queryctrl] <;> cases failed <;> cases brief <;> cases (id' != id) <;> reada []

theorem v4l2ExtControls_wf (get : Bool) (e : Option (Option (Arr × Bool))) (failed : Bool) (x : Option Arr) (str str' : Nat → Bool) :
    WellFormed 3 (ioctl (v4l2ExtControls get e failed x str str')) := by
  rcases e with _ | _ | ⟨a, fail⟩
  · simp only [v4l2ExtControls]; read
  · simp only [v4l2ExtControls]; read
  · cases x <;> simp only [v4l2ExtControls] <;> cases get <;> cases fail <;> cases failed <;>
      reada [isVal_extControl str, isVal_extControl str']

theorem uffdApi_wf (e : Option Nat) (failed : Bool) (x : Option Nat) : WellFormed 3 (ioctl (uffdApi e failed x)) := by
  cases e with
  | none => simp only [uffdApi]; read
  | some a =>
    cases x with
    | none => simp only [uffdApi]; cases failed <;> read
    | some b => simp only [uffdApi]; cases failed <;> cases (b != a) <;> read

theorem uffdCopy_wf (readable failed readable' : Bool) : WellFormed 3 (ioctl (uffdCopy readable failed readable')) := by
  unfold uffdCopy uffdTwo
  cases readable <;> cases failed <;> cases readable' <;> read

theorem uffdRange_wf (n : String) (readable failed readable' : Bool) : WellFormed 3 (ioctl (uffdRange n readable failed readable')) := by
  unfold uffdRange uffdTwo
  cases readable <;> cases failed <;> cases readable' <;> read

theorem ptpSysOffset_wf (readable : Bool) (rsv : Option Arr) (failed readable' : Bool) (ts : Arr) (r : Nat → Bool) :
    WellFormed 3 (ioctl (ptpSysOffset readable rsv failed readable' ts r)) := by
  cases rsv <;> simp only [ptpSysOffset] <;> cases readable <;> cases failed <;> cases readable' <;>
    reada [fun i => isVal_ptpTime (r i)]

theorem ptpSysOffsetExtended_wf (readable : Bool) (rsv : Option Arr) (failed readable' : Bool) (ts : Arr) (r : Nat → Bool) :
    WellFormed 3 (ioctl (ptpSysOffsetExtended readable rsv failed readable' ts r)) := by
  cases rsv <;> simp only [ptpSysOffsetExtended] <;> cases readable <;> cases failed <;> cases readable' <;>
    reada [isVal_ptpTime3 r]

theorem ptpPin_wf (get v2 readable : Bool) (rsv : Option Arr) (failed readable' : Bool) :
    WellFormed 3 (ioctl (ptpPin get v2 readable rsv failed readable')) := by
  cases rsv <;> simp only [ptpPin] <;> cases get <;> cases v2 <;> cases readable <;> cases failed <;> cases readable' <;> reada []

theorem rtcParam_wf (get : Bool) (e x : Option Bool) : WellFormed 3 (ioctl (rtcParam get e x)) := by
  rcases e with _ | _ | _ <;> rcases x with _ | _ | _ <;> cases get <;> simp only [rtcParam] <;> read

theorem fiemap_wf (readable failed readable' brief : Bool) (ext : Arr) : WellFormed 3 (ioctl (fiemap readable failed readable' brief ext)) := by
  unfold fiemap
  cases readable <;> cases failed <;> cases readable' <;> cases brief <;> reada [isVal_fiemapExtent]

theorem dedupe_wf (e : Option (Arr × Bool)) (failed : Bool) (x : Option Arr) : WellFormed 3 (ioctl (dedupe e failed x)) := by
  rcases e with _ | ⟨a, rc⟩ <;> cases x <;> simp only [dedupe]
  · read
  · read
  · cases rc <;> cases failed <;> reada [isVal_dedupeIn, isVal_dedupeOut]
  · cases rc <;> cases failed <;> reada [isVal_dedupeIn, isVal_dedupeOut]

theorem run_arr_s (e : Nat → List Tok) (h : ∀ i, IsVal (e i)) (a : Arr) (st : List (Bool × Option String)) (c : Nat)
    (rest : List Tok) : run ⟨st, .start, c⟩ (arr e a ++ rest) = run ⟨st, .full none, c⟩ rest :=
  isVal_arr e h a st .start c none rest rfl

theorem run_arr_a (e : Nat → List Tok) (h : ∀ i, IsVal (e i)) (a : Arr) (st : List (Bool × Option String)) (c : Nat) (n : Option String)
    (rest : List Tok) : run ⟨st, .again n, c⟩ (arr e a ++ rest) = run ⟨st, .full n, c⟩ rest :=
  isVal_arr e h a st (.again n) c n rest rfl

theorem lsmGet_wf (single : Bool) (e x : Option Nat) (seq : Arr) (ctx : Nat → Bool) : WellFormed 4 (lsmGet single e x seq ctx) := by
  cases e with
  | none => simp only [lsmGet]; read
  | some n =>
    cases x with
    | none => simp only [lsmGet]; cases single <;> read
    | some m =>
      simp only [lsmGet]
      cases single <;> cases (n != m) <;> reada [] <;>
        (first | rw [run_arr_s _ (isVal_lsmCtx ctx)] | rw [run_arr_a _ (isVal_lsmCtx ctx)]) <;> read

theorem schedSetattr_wf (a : Attr) (e2big : Bool) : WellFormed 3 (schedSetattr a e2big) := by
  cases a with
  | addr => cases e2big <;> simp only [schedSetattr, schedAttr] <;> read
  | brief more => cases more <;> cases e2big <;> simp only [schedSetattr, schedAttr] <;> read
  | all pol par util more =>
    cases pol <;> cases par <;> cases util <;> cases more <;> cases e2big <;> simp only [schedSetattr, schedAttr] <;> read

theorem getThreadArea_wf (null : Bool) (e : Option Nat) (failed : Bool) (x : Option Nat) (lm : Bool) :
    WellFormed 1 (getThreadArea null e failed x lm) := by
  rcases e with _ | n <;> rcases x with _ | m <;> simp only [getThreadArea] <;> cases null <;> cases failed <;> cases lm
  all_goals first | (read; done) | (cases (m != n) <;> read)

theorem clone3_wf (e : Option Clone) (failed : Bool) (x : Option (Bool × Bool × Bool)) : WellFormed 2 (clone3 e failed x) := by
  rcases e with _ | ⟨pidfd, ctid, ptid, tls, setTid, cgroup, tail, cont⟩
  · simp only [clone3]; read
  · have h1 : ∀ r : List Tok, ∃ n : Option String, run ⟨[], .start, 1⟩
        ([so] ++ f "flags" ++ opt pidfd (nf "pidfd") ++ opt ctid (nf "child_tid") ++ opt ptid (nf "parent_tid") ++ r) =
        run ⟨[(true, none)], .full n, 1⟩ r := by
      intro r
      cases pidfd <;> cases ctid <;> cases ptid <;> first
        | (refine ⟨some "parent_tid", ?_⟩; read; done) | (refine ⟨some "child_tid", ?_⟩; read; done) | (refine ⟨some "pidfd", ?_⟩; read; done) | (refine ⟨some "flags", ?_⟩; read; done)
    have h2 : ∀ (n : Option String) (r : List Tok), ∃ n' : Option String, run ⟨[(true, none)], .full n, 1⟩
        (nf "exit_signal" ++ nf "stack" ++ nf "stack_size" ++ opt tls (nf "tls") ++
         setTidText setTid ++ r) =
        run ⟨[(true, none)], .full n', 1⟩ r := by
      intro n r
      cases tls <;> cases setTid <;> simp only [setTidText] <;> first
        | (refine ⟨some "set_tid_size", ?_⟩; reada []; done) | (refine ⟨some "tls", ?_⟩; read; done) | (refine ⟨some "stack_size", ?_⟩; read; done)
    have h3 : ∀ (n : Option String) (r : List Tok), run ⟨[(true, none)], .full n, 1⟩
        (opt cgroup (nf "cgroup") ++ opt tail [next, val] ++ [sc] ++ r) = run ⟨[], .full none, 1⟩ r := by
      intro n r
      cases cgroup <;> cases tail <;> read
    simp only [clone3, WellFormed, List.append_assoc] at h1 h2 h3 ⊢
    obtain ⟨n, hn⟩ := h1 _
    rw [hn]
    obtain ⟨n', hn'⟩ := h2 n _
    rw [hn', h3]
    rcases x with _ | ⟨a, b, c⟩
    · cases cont <;> cases failed <;> read
    · cases cont <;> cases failed <;> cases a <;> cases b <;> cases c <;> read

theorem ioctlUnknown_wf (before after readable : Bool) (h : before || after = true) :
    WellFormed 3 (ioctl (ioctlUnknown before after readable)) := by
  revert h
  unfold ioctlUnknown
  cases before <;> cases after <;> cases readable <;> read

theorem seccompNotif_wf (e : Option Bool) (readable' : Bool) : WellFormed 3 (ioctl (seccompNotif e readable')) := by
  rcases e with _ | _ | _ <;> simp only [seccompNotif] <;> cases readable' <;> read

/-! ## Decoders that are wrong -/

theorem openPre_run (login : Nat) (uuid : Arr) (st : List (Bool × Option String)) (k : Bool × Option String) (c : Nat) (hk : k.1 = true)
    (r : List Tok) : run ⟨k :: st, .opened, c⟩ (openPre login uuid ++ r) = run ⟨k :: st, .full (some "num_params"), c⟩ r := by
  obtain ⟨kk, kn⟩ := k
  have hkk : kk = true := hk
  subst hkk
  unfold openPre
  by_cases h0 : login = 0
  · rw [if_pos h0]; reada []
  · rw [if_neg h0]
    by_cases h1 : login = 1
    · rw [if_pos h1]; reada []
    · rw [if_neg h1]; reada []

/-- members printed in a structure just opened -/
def IsFields (t : List Tok) : Prop :=
  ∀ (n : Option String) (st : List (Bool × Option String)) (c : Nat), ∃ m : Option String, ∀ r : List Tok,
    run ⟨(true, n) :: st, .opened, c⟩ (t ++ r) = run ⟨(true, n) :: st, .full m, c⟩ r

theorem teeParams_run (kind : Nat → Nat) (a : Arr) (n m : Option String) (st : List (Bool × Option String)) (c : Nat) (r : List Tok) :
    run ⟨(true, n) :: st, .full m, c⟩ (teeParams kind a ++ r) = run ⟨(true, n) :: st, .full (some "params"), c⟩ r := by
  unfold teeParams
  reada [isVal_teeParam kind]

/-- The four calls of the TEE driver are shown well formed exactly unless the call succeeds and what the argument points to cannot be
fetched any more. -/
theorem teeCall_wf_iff (pre post : List Tok) (hpre : IsFields pre) (hpost : IsFields post) (kind kind' : Nat → Nat) (e : Buf) (failed : Bool)
    (x : Buf) :
    WellFormed 3 (ioctl (teeCall pre post kind kind' e failed x)) ↔
      ((∃ a, e = .ok a) → failed = false → ∃ b, x = .ok b) := by
  cases e with
  | addr => simp only [teeCall, fetchText]; read
  | buf => simp only [teeCall, fetchText]; read
  | ok a =>
    have h : ∀ r : List Tok, run ⟨[], .start, 1⟩ (ioctl ([so] ++ f "buf_len" ++ [next, name "buf_ptr", so] ++ pre ++ teeParams kind a ++
        [sc] ++ r)) = run ⟨[(true, none)], .full (some "buf_ptr"), 3⟩ r := by
      intro r
      obtain ⟨m, hm⟩ := hpre (some "buf_ptr") [(true, none)] 3
      simp only [List.append_assoc]
      read
      rw [hm, teeParams_run]
      read
    unfold WellFormed
    simp only [teeCall]
    rw [h]
    cases failed with
    | true => read
    | false =>
      cases x with
      | addr => simp only [fetchText]; read
      | buf => simp only [fetchText]; read
      | ok b =>
        obtain ⟨m, hm⟩ := hpost (some "buf_ptr") [(true, none)] 3
        simp only [List.append_assoc]
        read
        rw [hm, teeParams_run]
        read

theorem tee_fields (login : Nat) (uuid : Arr) :
    IsFields (openPre login uuid) ∧ IsFields (fs ["session", "ret", "ret_origin"]) ∧
    IsFields (fs ["func", "session", "cancel_id", "num_params"]) ∧ IsFields (fs ["ret", "ret_origin"]) ∧
    IsFields (fs ["func", "num_params"]) ∧ IsFields (fs ["num_params"]) ∧ IsFields (fs ["ret"]) := by
  refine ⟨fun n st c => ⟨some "num_params", fun r => openPre_run login uuid st (true, n) c rfl r⟩, fun n st c => ⟨some "ret_origin", fun r => ?_⟩,
    fun n st c => ⟨some "num_params", fun r => ?_⟩, fun n st c => ⟨some "ret_origin", fun r => ?_⟩,
    fun n st c => ⟨some "num_params", fun r => ?_⟩, fun n st c => ⟨some "num_params", fun r => ?_⟩, fun n st c => ⟨some "ret", fun r => ?_⟩⟩ <;>
    read

theorem teeOpen_wf_iff_partial (login : Nat) (uuid : Arr) (kind kind' : Nat → Nat) (e : Buf) (failed : Bool) (x : Buf) :
    WellFormed 3 (ioctl (teeOpen login uuid kind kind' e failed x)) ↔ ((∃ a, e = .ok a) → failed = false → ∃ b, x = .ok b) :=
  teeCall_wf_iff _ _ (tee_fields login uuid).1 (tee_fields login uuid).2.1 kind kind' e failed x

theorem teeInvoke_wf_iff_partial (kind kind' : Nat → Nat) (e : Buf) (failed : Bool) (x : Buf) :
    WellFormed 3 (ioctl (teeInvoke kind kind' e failed x)) ↔ ((∃ a, e = .ok a) → failed = false → ∃ b, x = .ok b) :=
  teeCall_wf_iff _ _ (tee_fields 0 .value).2.2.1 (tee_fields 0 .value).2.2.2.1 kind kind' e failed x

theorem teeRecv_wf_iff_partial (kind kind' : Nat → Nat) (e : Buf) (failed : Bool) (x : Buf) :
    WellFormed 3 (ioctl (teeRecv kind kind' e failed x)) ↔ ((∃ a, e = .ok a) → failed = false → ∃ b, x = .ok b) :=
  teeCall_wf_iff _ _ (tee_fields 0 .value).2.2.2.2.1 (tee_fields 0 .value).2.2.2.2.2.1 kind kind' e failed x

theorem teeSend_wf_iff_partial (kind kind' : Nat → Nat) (e : Buf) (failed : Bool) (x : Buf) :
    WellFormed 3 (ioctl (teeSend kind kind' e failed x)) ↔ ((∃ a, e = .ok a) → failed = false → ∃ b, x = .ok b) :=
  teeCall_wf_iff _ _ (tee_fields 0 .value).2.2.2.2.2.1 (tee_fields 0 .value).2.2.2.2.2.2 kind kind' e failed x

/-- The map of a console is shown well formed exactly unless it is asked for and the structure cannot be read on exiting. -/
theorem kdUnimap_wf_iff_partial (get readable failed enomem readable' : Bool) (entries : Arr) :
    WellFormed 3 (ioctl (kdUnimap get readable failed enomem readable' entries)) ↔ (get = true → readable = true → readable' = true) := by
  unfold kdUnimap
  cases get <;> cases readable <;> cases failed <;> cases enomem <;> cases readable' <;> reada [isVal_unipair]

theorem names_differ : "interface_id" ≠ "flags" ∧ "interface_id" ≠ "dxferp" ∧ "dxferp" ≠ "flags" := by decide

theorem sgV3_request (r : List Tok) : run ⟨[], .start, 1⟩ (ioctl ([so] ++ f "interface_id" ++ [next] ++ sgV3Request ++ r)) =
    run ⟨[(true, none)], .full (some "flags"), 3⟩ r := by
  unfold sgV3Request; read

theorem sgV3_status (n : Option String) : run ⟨[(true, none)], .full n, 3⟩ (sgV3Status ++ [sc]) = some ⟨[], .full none, 3⟩ := by
  unfold sgV3Status; read

theorem sgV3_dxferp (b : Bool) (n : String) (r : List Tok) :
    run ⟨[(true, none)], .full (some n), 3⟩ (opt b (nf "dxferp") ++ r) =
      run ⟨[(true, none)], .full (some (if b = true then "dxferp" else n)), 3⟩ r := by
  cases b <;> read

theorem sgV3_changed (b : Bool) (n : String) (r : List Tok) :
    run ⟨[(true, none)], .full (some n), 3⟩ (opt b (changed :: f "dxferp") ++ r) =
      if b = true ∧ "dxferp" ≠ n then none else run ⟨[(true, none)], .full (some n), 3⟩ r := by
  cases b with
  | false => simp [opt]
  | true =>
    by_cases h : "dxferp" = n
    · subst h; read
    · simp [opt, f, changed_f, name_a, h]

theorem sgV3_response (d : Dir) (x : Option (Bool × Dir × Bool)) (n : String) (hn : "interface_id" ≠ n) :
    run ⟨[(true, none)], .full (some n), 3⟩ (sgV3Response d x ++ [sc]) = some ⟨[], .full none, 3⟩ ↔
      ∀ same d' bytes, x = some (same, d', bytes) → same = true ∧ (d' = .toFromDev → bytes = true → "dxferp" = n) := by
  rcases x with _ | ⟨_ | _, d', bytes⟩
  · simp only [sgV3Response, List.append_assoc]
    rw [sgV3_dxferp]
    read
  · simp [sgV3Response, f, changed_f, name_a, hn]
  · simp only [sgV3Response, List.append_assoc]
    rw [sgV3_dxferp, sgV3_changed, sgV3_status]
    cases d' <;> cases bytes <;> simp

/-- The third version of SG_IO is shown well formed exactly unless, on exiting, the interface_id is another one, or the direction has become
both ways, with bytes to show, from one that has no dxferp on entering. -/
theorem sgIoV3_wf_iff_partial (e : Option Dir) (x : Option (Bool × Dir × Bool)) :
    WellFormed 3 (ioctl (sgIo (.v3 e x))) ↔
      ∀ d, e = some d → ∀ same d' bytes, x = some (same, d', bytes) →
        same = true ∧ (d' = .toFromDev → bytes = true → d = .toDev ∨ d = .toFromDev) := by
  obtain ⟨h1, h2, h3⟩ := names_differ
  cases e with
  | none => simp only [sgIo, sgIoV3]; read
  | some d =>
    unfold WellFormed
    simp only [sgIo, sgIoV3]
    rw [List.append_assoc, List.append_assoc, sgV3_request, sgV3_dxferp]
    cases d
    · rw [show (if (Dir.toDev == Dir.toDev || Dir.toDev == Dir.toFromDev) = true then "dxferp" else "flags") = "dxferp" from rfl,
        sgV3_response _ _ _ h2]
      simp
    · rw [show (if (Dir.fromDev == Dir.toDev || Dir.fromDev == Dir.toFromDev) = true then "dxferp" else "flags") = "flags" from rfl,
        sgV3_response _ _ _ h1]
      simp
    · rw [show (if (Dir.toFromDev == Dir.toDev || Dir.toFromDev == Dir.toFromDev) = true then "dxferp" else "flags") = "dxferp" from rfl,
        sgV3_response _ _ _ h2]
      simp
    · rw [show (if (Dir.other == Dir.toDev || Dir.other == Dir.toFromDev) = true then "dxferp" else "flags") = "flags" from rfl,
        sgV3_response _ _ _ h1]
      simp

/-- The fourth version of SG_IO is shown well formed exactly unless the guard is another one on exiting. -/
theorem sgIoV4_wf_iff_partial (readable : Bool) (x : Option Bool) :
    WellFormed 3 (ioctl (sgIo (.v4 readable x))) ↔ (readable = true → x ≠ some false) := by
  rcases x with _ | _ | _ <;> cases readable <;> simp only [sgIo, sgIoV4] <;> read

theorem sgIo_other_wf : WellFormed 3 (ioctl (sgIo .addr)) ∧ WellFormed 3 (ioctl (sgIo .other)) := by decide

/-! ## `SYS_FUNC(ioctl)` -/

/-- The call has three arguments whatever the decoder of the command returns, if that decoder keeps to the rule: what it has printed is a
comma and a value exactly if it says so. -/
theorem sysIoctl_wf (arg : List Tok) (h : WellFormed 3 (ioctl arg)) (cut : Nat) :
    WellFormed 3 (sysIoctl (next :: arg, .ioctlDecoded) ([], .zero)) ∧
    WellFormed 3 (sysIoctl (next :: arg.take cut, .zero) (arg.drop cut, .ioctlDecoded)) ∧
    WellFormed 3 (sysIoctl ([], .zero) (next :: arg, .ioctlDecoded)) ∧
    WellFormed 3 (sysIoctl ([], .decoded) ([], .zero)) ∧
    WellFormed 3 (sysIoctl ([], .zero) ([], .zero)) ∧ WellFormed 3 (sysIoctl ([], .zero) ([], .decoded)) := by
  refine ⟨?_, ?_, ?_, by decide, by decide, by decide⟩
  · simpa [sysIoctl, ioctl] using h
  · have : sysIoctl (next :: arg.take cut, .zero) (arg.drop cut, .ioctlDecoded) = ioctl arg := by simp [sysIoctl, ioctl]
    rw [this]; exact h
  · simpa [sysIoctl, ioctl] using h

/-! ## Examples -/

/-- TEE_IOC_INVOKE: the outer structure is never closed, with three commas in it -/
example : ¬ WellFormed 3 (ioctl (teeInvoke (fun _ => 0) (fun _ => 0) (.ok (.members 1 false)) false .addr)) := by decide
example : run ⟨[], .start, 1⟩ (ioctl (teeInvoke (fun _ => 0) (fun _ => 0) (.ok (.members 1 false)) false .addr)) =
    some ⟨[(true, none)], .full (some "buf_ptr"), 3⟩ := by decide
/-- `{entry_ct=40x7ffc…}` -/
example : kdUnimap true true false false false .value = [so, name "entry_ct", val, val, sc] := rfl
example : ¬ WellFormed 3 (ioctl (kdUnimap true true false false false .value)) := by decide
/-- `{..., flags=0 => interface_id=81}` -/
example : ¬ WellFormed 3 (ioctl (sgIo (.v3 (some .fromDev) (some (false, .fromDev, true))))) := by decide
example : WellFormed 3 (ioctl (sgIo (.v3 (some .toFromDev) (some (true, .toFromDev, true))))) := by decide
example : WellFormed 3 (ioctl (v4l2ExtControls false (some (some (.members 2 true, false))) true (some (.members 1 false)) (fun _ => true)
    (fun i => i == 0))) := by decide
example : WellFormed 2 (clone3 (some ⟨true, true, true, false, some (.members 2 false), true, true, true⟩) false (some (true, true, true))) := by
  decide
/-- what the reader refuses -/
example : ¬ WellFormed 1 [so, name "a", val, next, sc] ∧ ¬ WellFormed 1 [so, name "a", sc] ∧ ¬ WellFormed 1 [ao, val, sc] ∧
    ¬ WellFormed 1 [so, name "a", val, changed, name "b", val, sc] ∧ ¬ WellFormed 1 [val, next] ∧ ¬ WellFormed 1 [val, changed] ∧
    ¬ WellFormed 1 [ao, name "a", val, ac] ∧ ¬ WellFormed 2 [val] ∧ ¬ WellFormed 1 [] := by decide

end Strace.Gram
