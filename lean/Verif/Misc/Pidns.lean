import Verif.Misc.Rules
/-!
# Translation of process ids between namespaces: src/pidns.c

The part of the kernel that is needed: for each process in /proc the namespaces it is in, innermost first, up to the namespace
/proc belongs to, with the ids the process has there.  The system does not change during one translation.
-/
namespace Strace.Misc

/-- PT_TID, PT_TGID, PT_PGID, PT_SID -/
abbrev IdType := Fin 4

abbrev Chain := List (Nat × (IdType → Nat))

/-- the system: the processes by their number in /proc, strace's own namespace, and the content of /proc: process directories with
their task directories -/
structure PidWorld where
  procs : Nat → Option Chain
  our : Nat
  dirs : List (Nat × List Nat)

/-- namespaces NS_GET_PARENT leads through: up to strace's own one; one only if the process is not below it -/
def reach (our : Nat) : List Nat → List Nat
  | [] => []
  | n :: ns => if n = our then [n] else if our ∈ ns then n :: reach our ns else [n]

/-- what `get_ns_hierarchy` reads, src/pidns.c:150-200; kernels without NS_GET_PARENT are not modelled -/
def nsList (w : PidWorld) (p : Nat) : List Nat :=
  match w.procs p with
  | none => []
  | some ch => reach w.our (ch.map (·.1))

/-- what `proc_status_get_id_list` reads, src/util.c:1060-1106: outermost first -/
def idList (w : PidWorld) (p : Nat) (t : IdType) : List Nat :=
  match w.procs p with
  | none => []
  | some ch => (ch.map fun e => e.2 t).reverse

/-- MAX_NS_DEPTH, src/pidns.c:67 -/
def maxDepth : Nat := 32

/-- `struct proc_data`, src/pidns.c:75-81 -/
structure PData where
  nsCount : Nat
  ns : Nat → Nat
  idCount : IdType → Nat
  id : IdType → Nat → Nat

/-- `calloc`, src/pidns.c:278 -/
def emptyData : PData := ⟨0, fun _ => 0, fun _ => 0, fun _ _ => 0⟩

/-- copying into an array of `maxDepth` elements -/
def fill (l : List Nat) (old : Nat → Nat) (i : Nat) : Nat := if i < maxDepth then l.getD i (old i) else old i

/-- src/pidns.c:296-297 -/
def updateNs (w : PidWorld) (p : Nat) (d : PData) : PData :=
  { d with nsCount := ((nsList w p).take maxDepth).length, ns := fill (nsList w p) d.ns }

/-- src/pidns.c:301-302; the count is that of the file, not that of the array (src/util.c:1095-1098) -/
def updateIds (w : PidWorld) (p : Nat) (t : IdType) (d : PData) : PData :=
  { d with idCount := fun u => if u = t then (idList w p t).length else d.idCount u
           id := fun u => if u = t then fill (idList w p t) (d.id t) else d.id u }

/-- `update_proc_data`, src/pidns.c:293-312 -/
def updateData (w : PidWorld) (p : Nat) (t : IdType) (d : PData) : Option PData :=
  if (updateNs w p d).nsCount = 0 then none
  else if (updateIds w p t (updateNs w p d)).idCount t = 0 then none
  else some (updateIds w p t (updateNs w p d))

/-- the loop src/pidns.c:361-375 with `k` rounds left; `bad` is a read outside the array of ids -/
def scanData (d : PData) (t : IdType) (fromNs fromId : Nat) : Nat → Nat → Res Nat
  | 0, _ => .ok 0
  | k + 1, i =>
    if d.idCount t - i - 1 ≥ maxDepth ∨ d.idCount t - d.nsCount ≥ maxDepth ∨ i ≥ maxDepth then .bad
    else if d.ns i ≠ fromNs then scanData d t fromNs fromId k (i + 1)
    else if d.id t (d.idCount t - i - 1) ≠ fromId then .ok 0
    else .ok (d.id t (d.idCount t - d.nsCount))

/-- `translate_id_proc_pid` with cached values, src/pidns.c:355-375 -/
def translateData (d : PData) (t : IdType) (fromNs fromId : Nat) : Res Nat :=
  if d.nsCount = 0 ∨ d.idCount t < d.nsCount then .ok 0 else scanData d t fromNs fromId d.nsCount 0

/-- src/pidns.c:31-43: the two caches, as maps -/
structure PidCaches where
  data : Nat → Option PData
  pid : Nat → Nat → IdType → Nat

def setData (c : PidCaches) (p : Nat) (d : Option PData) : PidCaches :=
  { c with data := fun q => if q = p then d else c.data q }

/-- `translate_id_proc_pid`, src/pidns.c:339-376 -/
def translateProc (w : PidWorld) (t : IdType) (fromNs fromId p : Nat) (c : PidCaches) : Res (Nat × PidCaches) :=
  match updateData w p t ((c.data p).getD emptyData) with
  | none => .ok (0, setData c p none)
  | some d => (translateData d t fromNs fromId).bind fun r => .ok (r, setData c p (some d))

/-- `translate_id_dir`, src/pidns.c:387-428, over the directories in the order they are read: the id and the process found -/
def translateList (w : PidWorld) (t : IdType) (fromNs fromId : Nat) : List Nat → PidCaches → Res ((Nat × Nat) × PidCaches)
  | [], c => .ok ((0, 0), c)
  | p :: ps, c => (translateProc w t fromNs fromId p c).bind fun r =>
    if r.1 ≠ 0 then .ok ((r.1, p), r.2) else translateList w t fromNs fromId ps r.2

/-- `trie_iterate_keys` with `proc_data_cache_iterator_fn`, src/pidns.c:435-456: `keys` is any list of keys -/
def translateCache (w : PidWorld) (t : IdType) (fromNs fromId : Nat) : List Nat → PidCaches → Res ((Nat × Nat) × PidCaches)
  | [], c => .ok ((0, 0), c)
  | p :: ps, c =>
    match c.data p with
    | none => translateCache w t fromNs fromId ps c
    | some d => (translateData d t fromNs fromId).bind fun r0 =>
      if r0 = 0 then translateCache w t fromNs fromId ps c
      else (translateProc w t fromNs fromId p c).bind fun r =>
        if r.1 ≠ 0 then .ok ((r.1, p), r.2) else translateCache w t fromNs fromId ps r.2

/-- all directories, tasks of a process before the process, src/pidns.c:415-424 -/
def allDirs (w : PidWorld) : List Nat := w.dirs.flatMap fun d => d.2 ++ [d.1]

/-- src/pidns.c:508-511 -/
def remember (t : IdType) (fromNs fromId : Nat) (r : (Nat × Nat) × PidCaches) : (Nat × Nat) × PidCaches :=
  if r.1.1 ≠ 0 then
    (r.1, { r.2 with pid := fun n i u => if n = fromNs ∧ i = fromId ∧ u = t then r.1.2 else r.2.pid n i u })
  else r

/-- src/pidns.c:497-505 -/
def translateSlow (w : PidWorld) (keys : List Nat) (t : IdType) (fromNs fromId : Nat) (c : PidCaches) : Res ((Nat × Nat) × PidCaches) :=
  (translateCache w t fromNs fromId keys c).bind fun r =>
    if r.1.1 ≠ 0 then .ok r else translateList w t fromNs fromId (allDirs w) r.2

/-- src/pidns.c:488-505: the process remembered for the id, then the rest -/
def translateFind (w : PidWorld) (keys : List Nat) (t : IdType) (fromNs fromId : Nat) (c : PidCaches) : Res ((Nat × Nat) × PidCaches) :=
  if c.pid fromNs fromId t ≠ 0 then
    (translateProc w t fromNs fromId (c.pid fromNs fromId t) c).bind fun r =>
      if r.1 ≠ 0 then .ok ((r.1, c.pid fromNs fromId t), r.2) else translateSlow w keys t fromNs fromId r.2
  else translateSlow w keys t fromNs fromId c

/-- src/pidns.c:488-517 -/
def translateId (w : PidWorld) (keys : List Nat) (t : IdType) (fromNs fromId : Nat) (c : PidCaches) : Res ((Nat × Nat) × PidCaches) :=
  (translateFind w keys t fromNs fromId c).bind fun r => .ok (remember t fromNs fromId r)

/-- `is_proc_ours`, src/pidns.c:222-231; `self` is strace's own number in /proc -/
def procOurs (w : PidWorld) (self : Nat) : Bool := (idList w self 0).length ≤ 1

/-- `translate_pid`, src/pidns.c:458-518; `ns` is the tracee's namespace or none if there is no tracee, `want` whether the number in
/proc is asked for.  The result is the id and the number in /proc. -/
def translatePid (w : PidWorld) (self : Nat) (keys : List Nat) (ns : Option Nat) (fromId : Nat) (t : IdType) (want : Bool)
    (c : PidCaches) : Res ((Nat × Nat) × PidCaches) :=
  if fromId = 0 then .ok ((0, 0), c)
  else if (ns = none ∨ ns = some w.our) ∧ (want = false ∨ procOurs w self = true) then .ok ((fromId, fromId), c)
  else if ns.getD w.our = 0 then .ok ((0, 0), c)
  else translateId w keys t (ns.getD w.our) fromId c

/-- `get_ns`, src/pidns.c:236-248, for a tracee whose namespace is not known yet -/
def getNs (w : PidWorld) (self : Nat) (keys : List Nat) (pid : Nat) (c : PidCaches) : Res (Nat × PidCaches) :=
  (translatePid w self keys none pid 0 true c).bind fun r =>
    .ok (if r.1.2 = 0 then 0 else (nsList w r.1.2).headD 0, r.2)

end Strace.Misc
