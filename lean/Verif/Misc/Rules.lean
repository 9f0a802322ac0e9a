/-!
# Injection rules and the values attached to them: src/retval.c, src/delay.c, src/filter_qualify.c
-/
namespace Strace.Misc

/-- the outcome of a step: a result, an error message and exit, or an access outside an array -/
inductive Res (α : Type) where
  | ok (a : α)
  | die
  | bad
deriving Repr, DecidableEq

def Res.bind {α β : Type} (r : Res α) (f : α → Res β) : Res β :=
  match r with
  | .ok a => f a
  | .die => .die
  | .bad => .bad

/-- src/retval.c:11-13, src/delay.c:16-18: an array of `vec.length` elements, `size` of them in use -/
structure Arena (α : Type) where
  vec : List α
  size : Nat
deriving Repr, DecidableEq

/-- src/retval.c:15-24, src/delay.c:23-32; `grow` gives the capacity `xgrowarray` chooses -/
def expand {α : Type} (grow : Nat → Nat) (zero : α) (a : Arena α) : Arena α :=
  if a.size = a.vec.length then
    { a with vec := a.vec ++ List.replicate (grow a.vec.length - a.vec.length) zero }
  else a

/-- src/retval.c:26-41 -/
def retvalNew (grow : Nat → Nat) (rval : Int) (a : Arena Int) : Res (Nat × Arena Int) :=
  let idx := a.size % 2 ^ 16
  if idx < a.size then .die
  else
    let b := expand grow 0 a
    if idx < b.vec.length then .ok (idx, { vec := b.vec.set idx rval, size := b.size + 1 }) else .bad

/-- src/retval.c:43-50 -/
def retvalGet (idx : Nat) (a : Arena Int) : Res Int :=
  if idx ≥ a.size then .die
  else match a.vec[idx]? with
    | some v => .ok v
    | none => .bad

/-- src/delay.c:11-14, times in nanoseconds -/
structure Delays where
  enter : Nat
  exit : Nat
deriving Repr, DecidableEq

/-- src/delay.c:34-47 -/
def allocDelay (grow : Nat → Nat) (a : Arena Delays) : Res (Nat × Arena Delays) :=
  let idx := a.size % 2 ^ 16
  if idx < a.size then .die
  else
    let b := expand grow ⟨0, 0⟩ a
    .ok (idx, { b with size := b.size + 1 })

/-- `*ts = *val`, src/delay.c:55-61 -/
def setDelay (isenter : Bool) (val : Nat) (d : Delays) : Delays :=
  if isenter then { d with enter := val } else { d with exit := val }

/-- src/delay.c:49-62 -/
def fillDelay (idx val : Nat) (isenter : Bool) (a : Arena Delays) : Res (Arena Delays) :=
  if idx ≥ a.size then .die
  else match a.vec[idx]? with
    | some d => .ok { a with vec := a.vec.set idx (setDelay isenter val d) }
    | none => .bad

/-- the delay `delay_tcb` takes, src/delay.c:100-120 -/
def getDelay (idx : Nat) (isenter : Bool) (a : Arena Delays) : Res Nat :=
  if idx ≥ a.size then .die
  else match a.vec[idx]? with
    | some d => .ok (if isenter then d.enter else d.exit)
    | none => .bad

/-- the parts of `struct inject_data`, src/defs.h; flags as booleans -/
structure Opts where
  error : Bool := false
  retval : Bool := false
  delayEnter : Bool := false
  delayExit : Bool := false
  signal : Option Nat := none
  rvalIdx : Nat := 0
  delayIdx : Nat := 0xffff
deriving Repr, DecidableEq

/-- a parsed `error=`, `retval=`, `signal=`, `delay_enter=` or `delay_exit=` token.  The parsing of the value is modelled
elsewhere; `when=`, `syscall=` and poke tokens do not touch these tables. -/
inductive Tok where
  | error (n : Nat)
  | retval (v : Int)
  | signal (n : Nat)
  | delay (isenter : Bool) (ns : Nat)
deriving Repr, DecidableEq

structure Tables where
  rv : Arena Int
  dl : Arena Delays
deriving Repr, DecidableEq

/-- the flag tested by `parse_delay_token`, src/filter_qualify.c:141-144 -/
def hasDelay (isenter : Bool) (o : Opts) : Bool := if isenter then o.delayEnter else o.delayExit

/-- src/filter_qualify.c:154 -/
def flagDelay (isenter : Bool) (o : Opts) : Opts :=
  if isenter then { o with delayEnter := true } else { o with delayExit := true }

/-- src/filter_qualify.c:150-151 -/
def delayIndex (grow : Nat → Nat) (o : Opts) (t : Tables) : Res (Opts × Tables) :=
  if o.delayIdx = 0xffff then
    (allocDelay grow t.dl).bind fun r => .ok ({ o with delayIdx := r.1 }, { t with dl := r.2 })
  else .ok (o, t)

/-- `parse_delay_token` and `parse_inject_token`, src/filter_qualify.c:138-157 and 352-402.  A token that is not accepted makes strace exit
(`qualify_inject_common`, 550-553). -/
def parseTok (grow : Nat → Nat) (tok : Tok) (o : Opts) (t : Tables) : Res (Opts × Tables) :=
  match tok with
  | .error n =>
    if o.error || o.retval then .die
    else (retvalNew grow n t.rv).bind fun r => .ok ({ o with rvalIdx := r.1, error := true }, { t with rv := r.2 })
  | .retval v =>
    if o.error || o.retval then .die
    else (retvalNew grow v t.rv).bind fun r => .ok ({ o with rvalIdx := r.1, retval := true }, { t with rv := r.2 })
  | .signal n => if o.signal.isSome then .die else .ok ({ o with signal := some n }, t)
  | .delay e ns =>
    if hasDelay e o then .die
    else (delayIndex grow o t).bind fun r =>
      (fillDelay r.1.delayIdx ns e r.2.dl).bind fun d => .ok (flagDelay e r.1, { r.2 with dl := d })

/-- the loop of `parse_inject_expression`, src/filter_qualify.c:422-426 -/
def parseToks (grow : Nat → Nat) : List Tok → Opts → Tables → Res (Opts × Tables)
  | [], o, t => .ok (o, t)
  | tok :: toks, o, t => (parseTok grow tok o t).bind fun r => parseToks grow toks r.1 r.2

/-- no action was given, src/filter_qualify.c:562 -/
def noAction (o : Opts) : Bool := !(o.error || o.retval || o.delayEnter || o.delayExit || o.signal.isSome)

/-- one `-e fault=` or `-e inject=` option: the calls it names, whether it is `fault=`, and its tokens -/
structure Rule where
  calls : List Nat
  fault : Bool
  toks : List Tok
deriving Repr, DecidableEq

/-- src/filter_qualify.c:539-571: the options of a rule, with ENOSYS (38) if `fault=` names no action -/
def parseRule (grow : Nat → Nat) (r : Rule) (t : Tables) : Res (Opts × Tables) :=
  (parseToks grow r.toks {} t).bind fun ot =>
    if noAction ot.1 then
      if r.fault then
        (retvalNew grow 38 ot.2.rv).bind fun n =>
          .ok ({ ot.1 with rvalIdx := n.1, error := true }, { ot.2 with rv := n.2 })
      else .die
    else .ok ot

/-- the loop src/filter_qualify.c:590-599 for one personality: the options of each call -/
def attach (r : Rule) (o : Opts) (inj : Nat → Option Opts) : Nat → Option Opts :=
  fun i => if i ∈ r.calls then some o else inj i

/-- all the options of the command line in turn -/
def parseRules (grow : Nat → Nat) : List Rule → (Nat → Option Opts) → Tables → Res ((Nat → Option Opts) × Tables)
  | [], inj, t => .ok (inj, t)
  | r :: rs, inj, t => (parseRule grow r t).bind fun ot => parseRules grow rs (attach r ot.1 inj) ot.2

end Strace.Misc
