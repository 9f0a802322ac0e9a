import Verif.Out.Model
/-!
What a log should look like, and which histories happen.
-/
namespace Strace.Out

/-! ### Lines -/

/-- text inside a line -/
def Inner (i : Nat) (t : Tok) : Prop := t.who = i ∧ t.kind ≠ .nl ∧ ∀ pid, t.kind ≠ .lead pid

/-- the beginning of a line: a leader, then text of the same tracee -/
def IsOpen (i : Nat) (l : List Tok) : Prop :=
  ∃ pid body, l = ⟨i, .lead pid⟩ :: body ∧ ∀ t ∈ body, Inner i t

/-- a line -/
def IsLine (l : List Tok) : Prop := ∃ i o, IsOpen i o ∧ l = o ++ [⟨i, .nl⟩]

/-- a log: lines, and possibly the beginning of one (of the tracee given) -/
def IsLog (log : List Tok) : Option Nat → Prop
  | none => ∃ ls : List (List Tok), (∀ l ∈ ls, IsLine l) ∧ log = ls.flatten
  | some i => ∃ (ls : List (List Tok)) (o : List Tok), (∀ l ∈ ls, IsLine l) ∧ IsOpen i o ∧ log = ls.flatten ++ o

/-- the text about one tracee -/
def about (i : Nat) (log : List Tok) : List Kind := (log.filter (fun t => t.who = i)).map Tok.kind

/-! ### What may be said about one tracee -/

/-- where the text about a tracee stands -/
inductive A
  /-- between calls -/
  | idle
  /-- a call was cut off -/
  | cut (n : Nat)
  /-- after a leader -/
  | begun (c : Option Nat)
  /-- after a note -/
  | said (c : Option Nat)
  /-- after the first part of a call -/
  | inC (n : Nat)
  /-- after the call was resumed, or more of it printed -/
  | inR (n : Nat)
  | cutting (n : Nat)
  | fin
  deriving DecidableEq, Repr

def A.base : Option Nat → A
  | none => .idle
  | some n => .cut n

/-- a call starts only between calls; a call that is cut off is resumed, once, under its own name, and then
completed; notes are lines of their own -/
def A.step : A → Kind → Option A
  | .idle, .lead _ => some (.begun none)
  | .cut n, .lead _ => some (.begun (some n))
  | .begun c, .note _ => some (.said c)
  | .said c, .nl => some (A.base c)
  | .begun none, .call n => some (.inC n)
  | .begun (some n), .resumed m => if m = n then some (.inR n) else none
  | .inC n, .rest => some (.inR n)
  | .inR n, .rest => some (.inR n)
  | .inC _, .ret => some .fin
  | .inR _, .ret => some .fin
  | .inC _, .never => some .fin
  | .inR _, .never => some .fin
  | .inC _, .detached => some .fin
  | .fin, .nl => some .idle
  | .inC n, .unfin => some (.cutting n)
  | .inC n, .pidChanged _ => some (.cutting n)
  | .cutting n, .nl => some (.cut n)
  | _, _ => none

def A.run : A → List Kind → Option A
  | a, [] => some a
  | a, k :: l =>
    match a.step k with
    | none => none
    | some a' => A.run a' l

/-! ### Histories -/

/-- what a tracee is doing -/
inductive Phase
  | unborn
  | idle
  /-- inside a call; `shown` unless filtered out -/
  | inCall (n : Nat) (shown : Bool)
  /-- ptrace failed at the entry of a call: the tracee is dying -/
  | failed (n : Nat)
  /-- the exit event was seen; `clean` unless ptrace had failed -/
  | dying (clean : Bool)
  | gone
  deriving DecidableEq, Repr

/-- alive -/
def Phase.alive : Phase → Bool
  | .unborn => false
  | .gone => false
  | _ => true

abbrev Phases := Nat → Phase

def Phases.set (ph : Phases) (i : Nat) (p : Phase) : Phases := fun j => if j = i then p else ph j

/-- the histories of a shared log: records are numbered by the order in which tracees appear, so a number is
never used again; calls alternate (C17); an exec by a thread is seen after the exit event of the leader -/
def Phases.step (ph : Phases) : Op → Option Phases
  | .start i _ out => if ph i = .unborn ∧ out = 0 then some (ph.set i .idle) else none
  | .enter i n f => if ph i = .idle then some (ph.set i (.inCall n (!f))) else none
  | .enterErr i n => if ph i = .idle then some (ph.set i (.failed n)) else none
  | .exit i _ =>
    match ph i with
    | .inCall _ _ => some (ph.set i .idle)
    | _ => none
  | .note i _ => if (ph i).alive = true then some ph else none
  | .eventExit i =>
    match ph i with
    | .idle => some (ph.set i (.dying true))
    | .inCall _ _ => some (ph.set i (.dying true))
    | .failed _ => some (ph.set i (.dying false))
    | _ => none
  | .drop i => if (ph i).alive = true then some (ph.set i .gone) else none
  | .switch l t _ =>
    match ph t with
    | .inCall _ _ => if ph l = .dying true then some (ph.set l .gone) else none
    | _ => none

def Phases.run : Phases → List Op → Option Phases
  | ph, [] => some ph
  | ph, o :: l =>
    match ph.step o with
    | none => none
    | some ph' => Phases.run ph' l

/-- nobody yet -/
def Phases.init : Phases := fun _ => .unborn

/-! ### What should be in the log -/

/-- text that carries information, as opposed to the arrangement in lines -/
def Kind.content : Kind → Bool
  | .call _ => true
  | .rest => true
  | .ret => true
  | .never => true
  | .note _ => true
  | _ => false

/-- the informative text of a log -/
def content (l : List Tok) : List Tok := l.filter fun t => t.kind.content

/-- what an event adds, given what everybody was doing.  The notice that a thread supersedes the leader can be
silenced.  After a failed ptrace the end of the call may or may not be mentioned. -/
def Says (quiet : Bool) (ph : Phases) : Op → List Tok → Prop
  | .start _ _ _, l => l = []
  | .enter i n filtered, l => l = if filtered = true then [] else [⟨i, .call n⟩]
  | .enterErr i n, l => l = [⟨i, .call n⟩]
  | .exit i res, l =>
    match ph i with
    | .inCall _ true => l = if res.isSome = true then [⟨i, .rest⟩, ⟨i, .ret⟩] else [⟨i, .ret⟩]
    | _ => l = []
  | .note i k, l => l = [⟨i, .note k⟩]
  | .eventExit i, l =>
    match ph i with
    | .inCall _ true => l = [⟨i, .never⟩]
    | .failed _ => l = [⟨i, .never⟩] ∨ l = []
    | _ => l = []
  | .drop _, l => l = []
  | .switch _ t k, l => l = if quiet = true then [] else [⟨t, .note k⟩]

/-- what a history adds -/
def SaysAll (quiet : Bool) : Phases → List Op → List Tok → Prop
  | _, [], l => l = []
  | ph, o :: os, l => ∃ ph' x y, ph.step o = some ph' ∧ Says quiet ph o x ∧ SaysAll quiet ph' os y ∧ l = x ++ y

/-- the process IDs: a thread that execs gets that of the leader -/
def pidsStep (p : Nat → Nat) : Op → Nat → Nat
  | .start i pid _ => fun j => if j = i then pid else p j
  | .switch l t _ => fun j => if j = t then p l else p j
  | _ => p

def pidsRun (p : Nat → Nat) (ops : List Op) : Nat → Nat := ops.foldl pidsStep p

end Strace.Out
