import Verif.Sig.Props
/-!
C91: what is not shown as it is, and the names of codes.
-/
namespace Strace.Sig
open Strace.Sized

/-- a siginfo_t of 128 bytes with the given numbers of four bytes at its start -/
def mk (l : List Nat) : List Byte :=
  let bytes : List Byte := l.flatMap fun v => [Fin.ofNat 256 v, Fin.ofNat 256 (v / 256), Fin.ofNat 256 (v / 65536), Fin.ofNat 256 (v / 16777216)]
  bytes ++ List.replicate (128 - bytes.length) 0

/-- A signal of real time that says that file 3 can be read (fcntl F_SETSIG) holds a band and a descriptor; it is shown with a sender, the process 65,
and a value. -/
theorem poll_as_source :
    layout 34 1 = .poll ∧ (members 8 .poll).map (shownAs (mk [34, 0, 1, 0, 0x41, 0, 3])) = [⟨"si_band", 0x41⟩, ⟨"si_fd", 3⟩] ∧
      printsiginfo 8 (mk [34, 0, 1, 0, 0x41, 0, 3]) =
        [⟨"si_signo", 34⟩, ⟨"si_code", 1⟩, ⟨"si_pid", 0x41⟩, ⟨"si_uid", 0⟩, ⟨"si_int", 3⟩, ⟨"si_ptr", 3⟩] := by decide +kernel

/-- The SIGTRAP of a ptrace event holds the process and the user; they are shown as an address. -/
theorem event_as_addr :
    layout 5 0x505 = .kill ∧
      (members 8 .kill).map (shownAs (mk [5, 0, 0x505, 0, 1234, 1000])) = [⟨"si_pid", 1234⟩, ⟨"si_uid", 1000⟩] ∧
      printsiginfo 8 (mk [5, 0, 0x505, 0, 1234, 1000]) = [⟨"si_signo", 5⟩, ⟨"si_code", 0x505⟩, ⟨"si_addr", 0x3e8000004d2⟩] := by
  decide +kernel

/-- A SIGSEGV of the kernel itself (SI_KERNEL) holds no address; one is shown. -/
theorem kernel_as_addr :
    layout 11 0x80 = .kill ∧ printsiginfo 8 (mk [11, 0, 0x80, 0, 0, 0]) = [⟨"si_signo", 11⟩, ⟨"si_code", 0x80⟩, ⟨"si_addr", 0⟩] := by
  decide +kernel

/-- A signal that a process queues to itself with the code SI_TKILL holds a value; it is not shown. -/
theorem tkill_value :
    layout 10 (-6) = .rt ∧ (mPtr 8).val (mk [10, 0, 2 ^ 32 - 6, 0, 1234, 1000, 7]) = 7 ∧
      printsiginfo 8 (mk [10, 0, 2 ^ 32 - 6, 0, 1234, 1000, 7]) =
        [⟨"si_signo", 10⟩, ⟨"si_code", -6⟩, ⟨"si_pid", 1234⟩, ⟨"si_uid", 1000⟩] := by decide +kernel

/-! ### The hypotheses are met -/

/-- a child that has exited, on both machines; a queued signal with and without a value; a fault by a protection key -/
example :
    printsiginfo 8 (mk [17, 0, 1, 0, 1234, 1000, 3, 0, 5, 0, 6, 0]) =
        [⟨"si_signo", 17⟩, ⟨"si_code", 1⟩, ⟨"si_pid", 1234⟩, ⟨"si_uid", 1000⟩, ⟨"si_status", 3⟩, ⟨"si_utime", 5⟩, ⟨"si_stime", 6⟩] ∧
      printsiginfo 4 (mk [17, 0, 1, 1234, 1000, 3, 5, 6]) =
        [⟨"si_signo", 17⟩, ⟨"si_code", 1⟩, ⟨"si_pid", 1234⟩, ⟨"si_uid", 1000⟩, ⟨"si_status", 3⟩, ⟨"si_utime", 5⟩, ⟨"si_stime", 6⟩] ∧
      Known 17 1 ∧ mSigno.val (mk [17, 0, 1, 0, 1234, 1000, 3, 0, 5, 0, 6, 0]) = 17 ∧
      printsiginfo 8 (mk [10, 0, 2 ^ 32 - 1, 0, 1234, 2 ^ 32 - 1, 7]) =
        [⟨"si_signo", 10⟩, ⟨"si_code", -1⟩, ⟨"si_pid", 1234⟩, ⟨"si_uid", -1⟩, ⟨"si_int", 7⟩, ⟨"si_ptr", 7⟩] ∧
      printsiginfo 8 (mk [10, 2, 2 ^ 32 - 1, 0, 1234, 1000]) =
        [⟨"si_signo", 10⟩, ⟨"si_code", -1⟩, ⟨"si_errno", 2⟩, ⟨"si_pid", 1234⟩, ⟨"si_uid", 1000⟩] ∧
      printsiginfo 8 (mk [11, 0, 4, 0, 0x1000, 0, 0, 0, 5]) =
        [⟨"si_signo", 11⟩, ⟨"si_code", 4⟩, ⟨"si_addr", 0x1000⟩, ⟨"si_pkey", 5⟩] := by
  refine ⟨by decide +kernel, by decide +kernel, Or.inr (by decide), by decide +kernel, by decide +kernel, by decide +kernel, by decide +kernel⟩

/-! ### The names of codes -/

/-- no number and no name is twice among the pairs -/
def Unambiguous (l : List (Int × String)) : Prop := (l.map (·.1)).Nodup ∧ (l.map (·.2)).Nodup

theorem lookup_mem : ∀ (l : List (Int × String)) (c : Int) (n : String), (l.map (·.1)).Nodup → (l.lookup c = some n ↔ (c, n) ∈ l)
  | [], c, n, _ => by simp
  | (a, m) :: l, c, n, h => by
    rw [List.map_cons, List.nodup_cons] at h
    rw [List.lookup_cons]
    by_cases hc : c = a
    · subst hc
      simp only [beq_self_eq_true, List.mem_cons, Prod.mk.injEq, true_and]
      constructor
      · intro hh; exact Or.inl (Option.some.inj hh).symm
      · rintro (hh | hh)
        · rw [hh]
        · exact absurd (List.mem_map.mpr ⟨_, hh, rfl⟩) h.1
    · have : (c == a) = false := by simpa using hc
      rw [this]
      simp only [List.mem_cons, Prod.mk.injEq, hc, false_and, false_or]
      exact lookup_mem l c n h.2

theorem name_once : ∀ (l : List (Int × String)) (c c' : Int) (n : String), (l.map (·.2)).Nodup → (c, n) ∈ l → (c', n) ∈ l → c = c'
  | [], _, _, _, _, h, _ => absurd h List.not_mem_nil
  | (a, m) :: l, c, c', n, hn, h, h' => by
    rw [List.map_cons, List.nodup_cons] at hn
    rw [List.mem_cons, Prod.mk.injEq] at h h'
    rcases h with h | h
    · rcases h' with h' | h'
      · rw [h.1, h'.1]
      · exact absurd (List.mem_map.mpr ⟨_, h', h.2⟩) hn.1
    · rcases h' with h' | h'
      · exact absurd (List.mem_map.mpr ⟨_, h, h'.2⟩) hn.1
      · exact name_once l c c' n hn.2 h h'

theorem tables (sig : Int) : Unambiguous (commonCodes ++ ownCodes sig) := by
  unfold ownCodes Unambiguous
  repeat' split
  all_goals decide

/-- The name shown for a code is the one of the codes common to all signals or the one among the codes of that very signal, never that of another
signal's code; two codes of a signal have different names. -/
theorem code_name_exact (sig c : Int) (n : String) :
    (codeName sig c = some n ↔ (c, n) ∈ commonCodes ∨ (c, n) ∈ ownCodes sig) ∧
      ∀ c', codeName sig c = some n → codeName sig c' = some n → c = c' := by
  have ht := tables sig
  unfold Unambiguous at ht
  rw [List.map_append, List.map_append] at ht
  have h1 := List.nodup_append.mp ht.1
  have key : ∀ c, codeName sig c = some n ↔ (c, n) ∈ commonCodes ++ ownCodes sig := by
    intro c
    rw [List.mem_append, ← lookup_mem _ c n h1.1, ← lookup_mem _ c n h1.2.1]
    unfold codeName
    rcases hl : commonCodes.lookup c with _ | m
    · simp
    · simp only [Option.some.injEq]
      constructor
      · intro h; exact Or.inl h
      · rintro (h | h)
        · exact h
        · exfalso
          rw [lookup_mem _ c m h1.1] at hl
          rw [lookup_mem _ c n h1.2.1] at h
          exact h1.2.2 c (List.mem_map.mpr ⟨_, hl, rfl⟩) c (List.mem_map.mpr ⟨_, h, rfl⟩) rfl
  refine ⟨by rw [key, List.mem_append], fun c' h h' => ?_⟩
  rw [key] at h h'
  have hn := ht.2
  rw [← List.map_append] at hn
  exact name_once _ c c' n hn h h'

theorem common_abi (c : Int) (n : String) : (c, n) ∈ commonCodes ↔ (n, none, c) ∈ abiCodes := by
  have h1 : ∀ p ∈ commonCodes, (p.2, none, p.1) ∈ abiCodes := by decide +kernel
  have h2 : ∀ q ∈ abiCodes, q.2.1 = none → (q.2.2, q.1) ∈ commonCodes := by decide +kernel
  exact ⟨fun h => h1 _ h, fun h => h2 _ h rfl⟩

theorem own_abi (sig c : Int) (n : String) : (c, n) ∈ ownCodes sig ↔ (n, some sig, c) ∈ abiCodes := by
  have h2 : ∀ q ∈ abiCodes, q.2.1.all (fun s => decide ((q.2.2, q.1) ∈ ownCodes s)) = true := by decide +kernel
  constructor
  · have key : ∀ s : Int, (∀ p ∈ ownCodes s, (p.2, some s, p.1) ∈ abiCodes) → (c, n) ∈ ownCodes s → (n, some s, c) ∈ abiCodes :=
      fun s h hm => h _ hm
    by_cases h : sig = 5 ∨ sig = 17 ∨ sig = 29 ∨ sig = 4 ∨ sig = 8 ∨ sig = 11 ∨ sig = 7 ∨ sig = 31
    · rcases h with h | h | h | h | h | h | h | h <;> subst h <;> apply key <;> decide +kernel
    · intro hm
      simp only [not_or] at h
      unfold ownCodes at hm
      rw [if_neg h.1, if_neg h.2.1, if_neg h.2.2.1, if_neg h.2.2.2.1, if_neg h.2.2.2.2.1, if_neg h.2.2.2.2.2.1,
        if_neg h.2.2.2.2.2.2.1, if_neg h.2.2.2.2.2.2.2] at hm
      cases hm
  · intro h
    have := h2 _ h
    simpa using this

/-- The name shown for a code of a signal is the name the kernel has for this number: one of those for any signal, or one for this
very signal. -/
theorem code_name_abi (sig c : Int) (n : String) :
    codeName sig c = some n ↔ (n, none, c) ∈ abiCodes ∨ (n, some sig, c) ∈ abiCodes := by
  rw [(code_name_exact sig c n).1, common_abi, own_abi]

example : codeName 11 1 = some "SEGV_MAPERR" ∧ codeName 17 1 = some "CLD_EXITED" ∧ codeName 34 1 = none ∧
    codeName 11 0x80 = some "SI_KERNEL" := by decide

end Strace.Sig
