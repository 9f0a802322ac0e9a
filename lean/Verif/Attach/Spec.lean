import Verif.Attach.Model
/-!
# What is to be traced when strace starts
-/
namespace Strace.Attach.Spec
open Strace.Tcb Strace.Attach

/-- a message announces that `p` was attached to -/
def Announced (p : Nat) (s : S) : Prop := ∃ t, Msg.attached p t ∈ s.msgs

/-- the number of processes and threads a message announces -/
def announces : Msg → Nat
  | .attached _ none => 1
  | .attached _ (some n) => n
  | _ => 0

/-- a directory lists the thread `q` -/
def Lists (l : List Dirent) (q : Nat) : Prop := ∃ d ∈ l, d.fileno ≠ 0 ∧ d.tid = (q : Int) ∧ 0 < q

/-- strace has one record for each process it traces, and none for others -/
structure Matches (s : S) : Prop where
  record : ∀ p, p ∈ s.k.traced ↔ p ≠ 0 ∧ ∃ i : Nat, s.st.tab[i]? = some ⟨p, true⟩
  only : ∀ (i p : Nat) (b : Bool), s.st.tab[i]? = some ⟨p, b⟩ → p ≠ 0 → b = true
  one : ∀ (i j p : Nat) (a b : Bool), s.st.tab[i]? = some ⟨p, a⟩ → s.st.tab[j]? = some ⟨p, b⟩ → p ≠ 0 → i = j
  number : s.st.nprocs = s.k.traced.length
  once : s.k.traced.Nodup

/-- what is traced: `named` are the processes to attach to -/
structure Covers (named : List Nat) (ch : Child) (follow : Bool) (parent tracer : Nat) (w : World) (s : S) : Prop where
  /-- the program that was started, if strace is not its child -/
  own : ∀ p ∈ ch.traced, p ∈ s.k.traced
  /-- a named process is traced, or there is a message; it is about strace itself or about a process it cannot trace -/
  each : ∀ p ∈ named, p ∈ s.k.traced ∨ (Msg.failed p ∈ s.msgs ∧ ∃ n, w.can n p = false) ∨
    (Msg.refused p ∈ s.msgs ∧ (p = parent ∨ p = tracer))
  /-- with -f, its threads are too, as far as they are found and can be -/
  threads : follow = true → ∀ p, Announced p s → p ≠ ch.pid → ∃ n, ∀ l, w.tasks n p = some l → ∀ q, Lists l q →
    q ∈ s.k.traced ∨ ∃ m, w.can m q = false
  /-- nothing else is traced -/
  nothing : ∀ q ∈ s.k.traced, q ∈ ch.traced ∨ (q ∈ named ∧ Announced q s) ∨
    (follow = true ∧ ∃ p n l, p ∈ named ∧ Announced p s ∧ p ≠ ch.pid ∧ w.tasks n p = some l ∧ Lists l q)
  /-- strace does not attach to itself -/
  self : ∀ p, Announced p s → p ∈ named ∧ p ≠ parent ∧ p ≠ tracer
  /-- the messages add up -/
  sum : s.k.traced.length = ch.traced.length + (s.msgs.map announces).sum

/-- the processes to attach to: those of -p, and the program with -D -/
def toAttach (ps : List Nat) : Child → List Nat
  | .parent p => p :: ps
  | _ => ps

end Strace.Attach.Spec
