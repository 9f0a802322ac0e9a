/-!
# Kernel release codes and the environment of the command: src/strace.c
-/
namespace Strace.Misc

/-- the loop over digits, src/strace.c:1927-1930; characters are ASCII codes, `unsigned int` arithmetic -/
def scanNum : List Nat → Nat → Nat × List Nat
  | [], n => (n, [])
  | c :: cs, n => if 48 ≤ c ∧ c ≤ 57 then scanNum cs ((n * 10 % 2 ^ 32 + (c - 48)) % 2 ^ 32) else (n, c :: cs)

/-- src/strace.c:1933-1934 -/
def skipDot : List Nat → List Nat
  | c :: cs => if c = 46 then cs else c :: cs
  | [] => []

/-- `get_os_release`, src/strace.c:1912-1937: the parts still to read, the string, the code so far -/
def releaseCode : Nat → List Nat → Nat → Nat
  | 0, _, rel => rel
  | parts + 1, p, rel =>
    releaseCode parts (skipDot (scanNum p 0).2) ((rel <<< 8) % 2 ^ 32 ||| (scanNum p 0).1)

/-- KERNEL_VERSION, src/kernel_types.h / linux/version.h -/
def kernelVersion (a b c : Nat) : Nat := a * 65536 + b * 256 + c

/-! ### the environment -/

/-- an entry, as characters without the terminating NUL -/
abbrev Entry := List Nat

/-- `!strncmp(env[r], var, len) && (env[r][len] == '=' || env[r][len] == '\0')`, src/strace.c:2123-2124 and 2149-2150, for
`len` at most the length of `var` -/
def sameKey (e var : Entry) (len : Nat) : Bool :=
  e.take len = var.take len && (e[len]? = some 61 || e[len]? = none)

/-- the loop of `remove_from_env`, src/strace.c:2122-2134: `k` entries left, read and write positions -/
def removeLoop (var : Entry) : Nat → Nat → Nat → List Entry → List Entry × Nat
  | 0, _, w, env => (env, w)
  | k + 1, r, w, env =>
    if sameKey (env.getD r []) var var.length then removeLoop var k (r + 1) w env
    else removeLoop var k (r + 1) (w + 1) (if w < r then env.set w (env.getD r []) else env)

/-- src/strace.c:2113-2141 -/
def removeFromEnv (env : List Entry) (cnt : Nat) (var : Entry) : List Entry × Nat :=
  let r := removeLoop var cnt 0 0 env
  (r.1, if r.2 < cnt then r.2 else cnt)

/-- the loop of `add_to_env`, src/strace.c:2148-2152 -/
def findLoop (env : List Entry) (var : Entry) (len : Nat) : Nat → Nat → Nat
  | 0, r => r
  | k + 1, r => if sameKey (env.getD r []) var len then r else findLoop env var len k (r + 1)

/-- src/strace.c:2143-2166; `none` is a write past the array -/
def addToEnv (env : List Entry) (cnt : Nat) (var : Entry) (len : Nat) : Option (List Entry × Nat) :=
  let r := findLoop env var len cnt 0
  if r < env.length then some (env.set r var, if r < cnt then cnt else cnt + 1) else none

/-- src/strace.c:2168-2177 -/
def updateEnv (env : List Entry) (cnt : Nat) (var : Entry) : Option (List Entry × Nat) :=
  if 61 ∈ var then addToEnv env cnt var (var.idxOf 61) else some (removeFromEnv env cnt var)

/-- src/strace.c:2209-2210 -/
def updateAll : List Entry → List Entry → Nat → Option (List Entry × Nat)
  | [], env, cnt => some (env, cnt)
  | c :: cs, env, cnt => (updateEnv env cnt c).bind fun r => updateAll cs r.1 r.2

/-- how building the environment ends: the entries before the NULL, an error message, or a write past the array -/
inductive Made where
  | env (entries : List Entry)
  | die
  | overrun
deriving Repr, DecidableEq

/-- the NULL written at `new_env[new_env_count]`, src/strace.c:2211 -/
def finishEnv (env : List Entry) (cnt : Nat) : Made := if cnt < env.length then .env (env.take cnt) else .overrun

/-- `make_env`, src/strace.c:2179-2214; `junk` is what the fresh array holds -/
def makeEnv (orig changes : List Entry) (junk : Nat → Entry) : Made :=
  if changes.length = 0 then .env orig
  else if orig.length + changes.length + 1 ≥ 2 ^ 64 then .die
  else
    match updateAll changes (orig ++ (List.range (changes.length + 1)).map junk) orig.length with
    | none => .overrun
    | some r => finishEnv r.1 r.2

end Strace.Misc
