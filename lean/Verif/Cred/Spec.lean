import Verif.Cred.Model
import Verif.StringToUint.Props
/-!
# Who the program runs as
-/
namespace Strace.Cred.Spec
open Strace.Cred Strace.StringToUint

/-- the text is two numbers with a colon between them -/
def IsPair (s : List Nat) (u g : Nat) : Prop :=
  ∃ a b, s = a ++ 58 :: b ∧ 58 ∉ a ∧ 58 ∉ b ∧ Accepts a (2 ^ 32 - 2) [] u [] ∧ Accepts b (2 ^ 32 - 2) [] g []

/-- with -u, the program has the user and group it is to have and no other, real, effective or saved, but for those a
set-user-ID or set-group-ID file gives it; exactly the supplementary groups it is to have; and it may gain privileges
again -/
structure AsUser (w : Who) (x : Exe) (p : Proc) : Prop where
  ruid : p.cr.ruid = w.uid
  rgid : p.cr.rgid = w.gid
  euid : p.cr.euid = if x.setuid then x.uid else w.uid
  egid : p.cr.egid = if x.setgid then x.gid else w.gid
  suid : p.cr.suid = p.cr.euid
  sgid : p.cr.sgid = p.cr.egid
  groups : p.cr.groups = w.groups
  nnp : p.nnp = false

/-- without -u, nothing is changed -/
def Unchanged (p0 p : Proc) : Prop := p.cr = p0.cr

/-- strace is run by root, as -u asks for, and nothing is installed or attached -/
structure Root (p : Proc) : Prop where
  euid : p.cr.euid = 0
  filter : p.filter = false
  nnp : p.nnp = false
  traced : p.traced = false

end Strace.Cred.Spec
