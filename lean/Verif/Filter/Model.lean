import Verif.NumberSet.Lemmas
import Verif.StringToUint.Model
/-
Model of src/basic_filters.c: the decoding of `-e trace=…`-style and `-e signal=…`-style sets.
Characters are codes (`Nat`), strings are lists of them.  `none` as a result is "strace prints an
error and exits" (error_msg_and_die / error_msg_and_help).
-/
namespace Strace.Filter
open NumberSet

/-- One `strtok_r(…, ",", …)` call on the unread rest (libc contract): skip delimiters; if anything is
left, the token is the longest run without a delimiter, and the rest starts after the delimiter that
ended it. -/
def strtok (s : List Nat) : Option (List Nat × List Nat) :=
  match s.dropWhile (· == 44) with
  | [] => none
  | c :: t => some ((c :: t).takeWhile (· != 44), ((c :: t).dropWhile (· != 44)).drop 1)

theorem strtok_length {s t r : List Nat} (h : strtok s = some (t, r)) : r.length < s.length := by
  unfold strtok at h
  have h1 := (List.dropWhile_suffix (l := s) (· == 44)).length_le
  split at h
  · cases h
  · rename_i c u heq
    injection h with h
    injection h with _ h
    subst h
    have hc : (c == 44) = false := by
      have := List.head?_dropWhile_not (· == 44) s
      rw [heq] at this
      simpa using this
    rw [heq] at h1
    have h2 : (List.dropWhile (· != 44) (c :: u)).length ≤ u.length := by
      rw [List.dropWhile_cons]
      have : (c != 44) = true := by simp only [bne, hc]; rfl
      simp only [this, if_true]
      exact (List.dropWhile_suffix _).length_le
    simp only [List.length_drop, List.length_cons] at *
    omega

/-- src/basic_filters.c:314-322, the token loop of `qualify_tokens` over the copy: `number` is the last
value of the C variable (`none` for -1). -/
def tokenLoop (func : List Nat → Option Nat) (s : List Nat) (set : NSet) (number : Option Nat) :
    Option (NSet × Option Nat) :=
  match _h : strtok s with
  | none => some (set, number)
  | some (tok, rest) =>
    match func tok with
    | none => none
    | some n => tokenLoop func rest (addNumber n set) (some n)
termination_by s.length
decreasing_by exact strtok_length _h

/-- src/basic_filters.c:289-293, the '!' loop: every leading '!' inverts the set. -/
def bangs (inv : σ → σ) : List Nat → σ → List Nat × σ
  | [], st => ([], st)
  | c :: t, st => if c = 33 then bangs inv t (inv st) else (c :: t, st)

/-- "none" -/
def sNone : List Nat := [110, 111, 110, 101]
/-- "all" -/
def sAll : List Nat := [97, 108, 108]

/-- src/basic_filters.c:279-333 `qualify_tokens`.  `func` models the decoder: `none` is a negative
return value. -/
def qualifyTokens (func : List Nat → Option Nat) (str : List Nat) (set : NSet) : Option NSet :=
  let b := bangs invert str (clear set)
  if b.1 = sNone then some b.2
  else if b.1 = sAll then some (invert b.2)
  else
    match tokenLoop func b.1 b.2 none with
    | none => none
    | some (_, none) => none
    | some (set', some _) => some set'

/-! ### System call sets -/

/-- src/sysent.h:13-19 `struct_sysent`, the fields the filters read: `sys_name` (NULL is `none`),
whether `sys_func` is non-NULL, `sys_flags`. -/
structure SysEnt where
  name : Option (List Nat)
  hasFunc : Bool
  flags : Nat
deriving Repr, DecidableEq

/-- What the configuration provides: the syscall tables and designators of the supported personalities
(src/syscall.c `sysent_vec`, `personality_designators`), `shuffle_scno_pers`,
ARCH_NEEDS_NON_SHUFFLED_SCNO_CHECK, and the POSIX regex functions (libc contract: `regcomp` either
fails, `none`, or yields a matcher; run-time failures of `regexec` other than "no match" end the
program and are not modelled). -/
structure Env where
  tables : List (List SysEnt)
  designators : List (List Nat)
  shuffle : Nat → Nat → Nat
  nonShuffledCheck : Bool
  regcomp : List Nat → Option (List Nat → Bool)

/-- src/sysent.h:31 TRACE_INDIRECT_SUBCALL -/
def traceIndirectSubcall : Nat := 0o2000

/-- the table of a personality (src/syscall.c `sysent_vec[p]`, `nsyscall_vec[p]` is its length) -/
def Env.table (E : Env) (p : Nat) : List SysEnt := (E.tables[p]?).getD []

/-- src/defs.h:2039-2045 `scno_pers_is_valid`. -/
def Env.valid (E : Env) (scno p : Nat) : Bool :=
  match (E.table p)[scno]? with
  | none => false
  | some e => e.hasFunc && (e.flags &&& traceIndirectSubcall) == 0

/-- src/number_set.c:109-114 `add_number_to_set_array`. -/
def addArr (n : Nat) (sets : List NSet) (p : Nat) : List NSet := sets.modify p (addNumber n)

/-- src/basic_filters.c:56 `unsigned int nr = string_to_uint(str)` -/
def tokenNumber (s : List Nat) : Nat :=
  match StringToUint.stringToUintUpto s (2 ^ 31 - 1) with
  | some v => v.toNat
  | none => 2 ^ 32 - 1

/-- src/basic_filters.c:53-68 `qualify_syscall_number`.  `string_to_uint` is
`string_to_uint_upto(str, INT_MAX)`; its -1 becomes `(unsigned) -1`. -/
def qualifyNumber (E : Env) (s : List Nat) (p : Nat) (sets : List NSet) : Bool × List NSet :=
  let nr := tokenNumber s
  let scno := E.shuffle nr p % 2 ^ 32
  if E.valid scno p then (true, addArr scno sets p)
  else if E.nonShuffledCheck && E.valid nr p then (true, addArr nr sets p)
  else (false, sets)

/-- does entry `i` of the table carry a name satisfying `f`? -/
def Env.nameSat (E : Env) (p i : Nat) (f : List Nat → Bool) : Bool :=
  match (E.table p)[i]? with
  | some e => match e.name with
    | some nm => f nm
    | none => false
  | none => false

/-- src/basic_filters.c:80-108 `qualify_syscall_regex` (`s` is the text after the '/'). -/
def qualifyRegex (E : Env) (s : List Nat) (p : Nat) (sets : List NSet) : Option (Bool × List NSet) :=
  match E.regcomp s with
  | none => none
  | some m =>
    some ((List.range (E.table p).length).foldl
      (fun (acc : Bool × List NSet) i =>
        if E.nameSat p i m then (true, addArr i acc.2 p) else acc) (false, sets))

/-- src/basic_filters.c:113-143, the table `syscall_class` (values from src/sysent.h:21-43). -/
def classTable : List (Nat × String) := [
  (0o40, "%desc"), (0o1, "%file"), (0o100, "%memory"), (0o10, "%process"), (0o10000000, "%creds"),
  (0o20, "%signal"), (0o2, "%ipc"), (0o4, "%net"), (0o4, "%network"), (0o10000, "%stat"),
  (0o20000, "%lstat"), (0o400000, "%fstat"), (0o1000000, "%%stat"), (0o40000, "%statfs"),
  (0o100000, "%fstatfs"), (0o200000, "%%statfs"), (0o2000000, "%pure"), (0o20000000, "%clock"),
  (0, "all"), (0o40, "desc"), (0o1, "file"), (0o100, "memory"), (0o10, "process"), (0o20, "signal"),
  (0o2, "ipc"), (0o4, "network")]

def codes (s : String) : List Nat := s.toList.map Char.toNat

/-- `tolower` in the C locale (libc contract) -/
def toLower (c : Nat) : Nat := if 65 ≤ c ∧ c ≤ 90 then c + 32 else c

/-- `strcasecmp(a, b) == 0` (libc contract) -/
def caseEq (a b : List Nat) : Bool := a.map toLower == b.map toLower

/-- src/util.c:36-47 `find_xlat_val_ex` with strcasecmp, through defs.h `find_xlat_val_case`: first
entry whose name equals the text up to case. -/
def findClass (s : List Nat) : Option Nat :=
  (classTable.find? fun e => caseEq s (codes e.2)).map (·.1)

/-- src/basic_filters.c:150-151, the test of one table entry -/
def Env.classSat (E : Env) (p i n : Nat) : Bool :=
  match (E.table p)[i]? with
  | some e => e.name.isSome && (e.flags &&& n) == n
  | none => false

/-- src/basic_filters.c:110-155 `qualify_syscall_class`. -/
def qualifyClass (E : Env) (s : List Nat) (p : Nat) (sets : List NSet) : Bool × List NSet :=
  match findClass s with
  | none => (false, sets)
  | some n =>
    (true, (List.range (E.table p).length).foldl
      (fun acc i => if E.classSat p i n then addArr i acc p else acc) sets)

/-- src/basic_filters.c:157-170 `scno_by_name`: the first index from `start` on. -/
def scnoByName (E : Env) (s : List Nat) (p start : Nat) : Option Nat :=
  (List.range' start ((E.table p).length - start)).find? fun i => E.nameSat p i (fun nm => s == nm)

theorem scnoByName_some {E : Env} {s : List Nat} {p start i : Nat}
    (h : scnoByName E s p start = some i) : start ≤ i ∧ i < (E.table p).length := by
  have := List.mem_of_find?_eq_some h
  simp only [List.mem_range'_1] at this
  omega

/-- src/basic_filters.c:172-184, the loop of `qualify_syscall_name`. -/
def nameLoop (E : Env) (s : List Nat) (p start : Nat) (acc : Bool × List NSet) : Bool × List NSet :=
  match h : scnoByName E s p start with
  | none => acc
  | some i => nameLoop E s p (i + 1) (true, addArr i acc.2 p)
termination_by (E.table p).length - start
decreasing_by have := scnoByName_some h; omega

/-- src/basic_filters.c:172-184 `qualify_syscall_name`. -/
def qualifyName (E : Env) (s : List Nat) (p : Nat) (sets : List NSet) : Bool × List NSet :=
  nameLoop E s p 0 (false, sets)

/-- src/basic_filters.c:186-195 `qualify_syscall_pers`; `none` is a fatal error. -/
def qualifyPers (E : Env) (tok : List Nat) (p : Nat) (sets : List NSet) : Option (Bool × List NSet) :=
  match tok with
  | c :: t =>
    if 48 ≤ c ∧ c ≤ 57 then some (qualifyNumber E (c :: t) p sets)
    else if c = 47 then qualifyRegex E t p sets
    else
      let r := qualifyClass E (c :: t) p sets
      if r.1 then some r else some (qualifyName E (c :: t) p r.2)
  | [] =>
    let r := qualifyClass E [] p sets
    if r.1 then some r else some (qualifyName E [] p r.2)

/-- `strrchr(s, '@')`: the text before and after the last '@' (libc contract). -/
def splitLastAt : List Nat → Option (List Nat × List Nat)
  | [] => none
  | c :: t => match splitLastAt t with
    | some (a, b) => some (c :: a, b)
    | none => if c = 64 then some ([], t) else none

/-- src/basic_filters.c:34-51 `qualify_syscall_separate_personality`: `some none` – no '@';
`some (some (name, p))`; `none` – fatal error, unknown designator. -/
def separatePersonality (E : Env) (s : List Nat) : Option (Option (List Nat × Nat)) :=
  match splitLastAt s with
  | none => some none
  | some (nm, d) => match E.designators.findIdx? (· == d) with
    | some p => some (some (nm, p))
    | none => none

/-- src/basic_filters.c:200-204: skip '?' -/
def skipQ : List Nat → Bool → List Nat × Bool
  | [], rc => ([], rc)
  | c :: t, rc => if c = 63 then skipQ t true else (c :: t, rc)

/-- src/basic_filters.c:212-213: the loop over the personalities -/
def persLoop (E : Env) (tok : List Nat) : List Nat → Bool × List NSet → Option (Bool × List NSet)
  | [], acc => some acc
  | p :: ps, acc => match qualifyPers E tok p acc.2 with
    | none => none
    | some r => persLoop E tok ps (acc.1 || r.1, r.2)

/-- src/basic_filters.c:197-217 `qualify_syscall`. -/
def qualifySyscall (E : Env) (token : List Nat) (sets : List NSet) : Option (Bool × List NSet) :=
  let q := skipQ token false
  match separatePersonality E q.1 with
  | none => none
  | some (some (nm, p)) => match qualifyPers E nm p sets with
    | none => none
    | some r => some (q.2 || r.1, r.2)
  | some none => persLoop E q.1 (List.range E.tables.length) (q.2, sets)

/-- src/basic_filters.c:260-266, the token loop; `done` is the last value of the C variable. -/
def sysTokenLoop (E : Env) (s : List Nat) (sets : List NSet) (done : Bool) :
    Option (List NSet × Bool) :=
  match _h : strtok s with
  | none => some (sets, done)
  | some (tok, rest) =>
    match qualifySyscall E tok sets with
    | none => none
    | some (rc, sets') => if rc then sysTokenLoop E rest sets' true else none
termination_by s.length
decreasing_by exact strtok_length _h

/-- src/basic_filters.c:223-274 `qualify_syscall_tokens`; `sets` has one set per supported
personality. -/
def qualifySyscallTokens (E : Env) (str : List Nat) (sets : List NSet) : Option (List NSet) :=
  let b := bangs (List.map invert) str (sets.map clear)
  if b.1 = sNone then some b.2
  else if b.1 = sAll then some (b.2.map invert)
  else
    match sysTokenLoop E b.1 b.2 false with
    | none => none
    | some (sets', done) => if done then some sets' else none

end Strace.Filter
