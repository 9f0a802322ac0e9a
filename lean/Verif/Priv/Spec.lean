import Verif.Priv.Model
/-!
# C107: what a decoder gets on exiting is what it kept on entering
-/
namespace Strace.Priv

/-- an allocator: no address is 0, none is given twice while it is in use -/
def Fresh (al : Alloc) : Prop := ∀ seed used, al seed used ≠ 0 ∧ al seed used ∉ used

/-- a call with an unknown number has no decoder, and is no ipc call; so has one whose number could not be read -/
def Call.Ok (c : Call) : Prop := c.number ≠ .valid → c.version = 0 ∧ c.kept = .nothing ∧ c.asked = false

def Life.Ok (l : Life) : Prop := (∀ c ∈ l.done, c.Ok) ∧ ∀ c, l.last = some c → c.Ok

/-- what a decoder must get on exiting: the number or the very thing it kept; if it kept nothing, the version -/
def Right (c : Call) (s : Seen) : Prop :=
  match c.kept with
  | .nothing => s.word = c.version
  | .num n => s.word = n
  | .obj _ t => s.obj = some ⟨.decoder, t⟩

/-- the decoder of an ipc call with a version keeps nothing -/
def Call.OneUse (c : Call) : Prop := c.version ≠ 0 → c.kept = .nothing

/-- strace did not attach to the tracee while it was outside of any call -/
def Life.InCall (l : Life) : Prop := ∀ seed, l.attached ≠ some (.invalid seed)

/-- all the calls -/
def Life.all (l : Life) : List Call := l.done ++ l.last.toList

end Strace.Priv
