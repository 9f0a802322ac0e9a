import Verif.Pack.Model
/-
The control words of prctl: vector lengths, tagged addresses, the vector state of RISC-V.

`aux` and `rval` say that the text is an explanation after a result.  `none` is a NULL result: no text.
-/
namespace Strace.Pack
open Strace.Xlat

/-- src/xlat/pr_sve_vl_flags.in:1-2 and src/xlat/pr_sme_vl_flags.in:1-2, `x` is "SVE" or "SME" -/
def vlFlags (x : String) : Table :=
  ⟨[⟨0x40000#64, some ("PR_" ++ x ++ "_SET_VL_ONEXEC")⟩, ⟨0x20000#64, some ("PR_" ++ x ++ "_VL_INHERIT")⟩], .normal⟩

/-- src/xlat/pr_tagged_addr_enable.in:1-3 -/
def taggedEnable : Table :=
  ⟨[⟨0#64, some "!PR_TAGGED_ADDR_ENABLE"⟩, ⟨1#64, some "PR_TAGGED_ADDR_ENABLE"⟩], .normal⟩

/-- src/xlat/pr_tagged_addr_mte_tcf.in:1-5; the values are those of linux/prctl.h -/
def mteTcf : Table :=
  ⟨[⟨0#64, some "PR_MTE_TCF_NONE"⟩, ⟨2#64, some "PR_MTE_TCF_SYNC"⟩, ⟨4#64, some "PR_MTE_TCF_ASYNC"⟩,
    ⟨6#64, some "PR_MTE_TCF_MASK"⟩], .normal⟩

/-- src/xlat/pr_riscv_v_inherit.in:1-3 -/
def riscvInherit : Table :=
  ⟨[⟨0#64, some "!PR_RISCV_V_VSTATE_CTRL_INHERIT"⟩, ⟨16#64, some "PR_RISCV_V_VSTATE_CTRL_INHERIT"⟩], .normal⟩

/-- src/xlat/pr_riscv_v_states.in:1-4; it is indexed by value, which is the same (C05) -/
def riscvStates : Table :=
  ⟨[⟨0#64, some "PR_RISCV_V_VSTATE_CTRL_DEFAULT"⟩, ⟨1#64, some "PR_RISCV_V_VSTATE_CTRL_OFF"⟩,
    ⟨2#64, some "PR_RISCV_V_VSTATE_CTRL_ON"⟩], .normal⟩

/-- `flags_str ?: "", flags_str ? "|" : ""`: src/prctl.c:100-104, 136-140 -/
def optFlags : Option (List Piece) → List Tok
  | none => []
  | some l => ps l ++ bar

/-- src/prctl.c:74-108 `sprint_sve_val` and 110-144 `sprint_sme_val` (the same but for the names) -/
def vlVal (x : String) (st : Verb) (arg : BitVec 64) (aux : Bool) : Option (List Tok) :=
  if st = .raw then if aux = true then none else some (num arg)
  else
    let vl := arg &&& 0xffff#64
    let flags := arg &&& ~~~0xffff#64
    if flags = 0 ∧ aux = true then none
    else
      let str := sprintflags [] (vlFlags x).data flags none .abbrev false
      if aux = false ∧ flags ≠ 0 ∧ st = .verbose then
        some (num arg ++ [.p .open_] ++ optFlags str ++ num vl ++ [.p .close])
      else some (optFlags str ++ num vl)

/-- the argument of `%s`: src/prctl.c:168-170, 215-217.  NULL would print "(null)", which no table used
here leads to. -/
def strArg : Option (List Piece) → List Tok
  | none => [.p (.name "(null)")]
  | some l => ps l

/-- src/prctl.c:146-185 `sprint_tagged_addr_val` -/
def taggedAddrVal (st : Verb) (arg : BitVec 64) (rval : Bool) : Option (List Tok) :=
  let enabled := arg &&& 1#64
  let tcf := arg &&& 6#64
  let tag := arg &&& 0x7fff8#64
  let rest := arg &&& ~~~(1#64 ||| 6#64 ||| 0x7fff8#64)
  let p0 := if rval = false ∧ st ≠ .abbrev then num arg else []
  if st = .raw then if rval = true then none else some p0
  else
    let p1 := if rval = false ∧ st = .verbose then p0 ++ [.p .open_] else p0
    let p2 := p1 ++ strArg (sprintflags [] taggedEnable.data enabled none .abbrev false) ++ bar
    let p3 := p2 ++ xval tcf none .abbrev [mteTcf]
    let p4 := if tag ≠ 0 then p3 ++ bar ++ num (tag >>> 3) ++ [.shl] ++ [.p (.name "PR_MTE_TAG_SHIFT")] else p3
    let p5 := if rest ≠ 0 then p4 ++ bar ++ num rest else p4
    some (if rval = false ∧ st = .verbose then p5 ++ [.p .close] else p5)

/-- src/prctl.c:187-225 `sprint_riscv_v_ctrl_val` -/
def riscvCtrlVal (st : Verb) (arg : BitVec 64) (rval : Bool) : Option (List Tok) :=
  let inherit_ := arg &&& 16#64
  let next := (arg &&& 0xc#64) >>> 2
  let cur := arg &&& 3#64
  let rest := arg &&& ~~~0x1f#64
  let p0 := if rval = false ∧ st ≠ .abbrev then num arg else []
  if st = .raw then if rval = true then none else some p0
  else
    let p1 := if rval = false ∧ st = .verbose then p0 ++ [.p .open_] else p0
    let p2 := p1 ++ xval cur none .abbrev [riscvStates] ++ bar
    let p3 := p2 ++ xval next none .abbrev [riscvStates] ++ [.shl] ++ num 2 ++ bar
    let p4 := p3 ++ strArg (sprintflags [] riscvInherit.data inherit_ none .abbrev false)
    let p5 := if rest ≠ 0 then p4 ++ bar ++ num rest else p4
    some (if rval = false ∧ st = .verbose then p5 ++ [.p .close] else p5)

end Strace.Pack
