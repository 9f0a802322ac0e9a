import Verif.Args.Subcall
/-!
# C77: a multiplexed call is shown as the call it stands for
-/
namespace Strace.Args

/-! ### Specification: what the kernel does with socketcall and ipc (net/socket.c, ipc/syscall.c) -/

/-- the calls of the socket multiplexer, by number (include/uapi/linux/net.h), with their number of arguments -/
def socketCalls : List (Nat × String × Nat) :=
  [(1, "socket", 3), (2, "bind", 3), (3, "connect", 3), (4, "listen", 2), (5, "accept", 3), (6, "getsockname", 3),
   (7, "getpeername", 3), (8, "socketpair", 4), (9, "send", 4), (10, "recv", 4), (11, "sendto", 6), (12, "recvfrom", 6),
   (13, "shutdown", 2), (14, "setsockopt", 5), (15, "getsockopt", 5), (16, "sendmsg", 3), (17, "recvmsg", 3),
   (18, "accept4", 4), (19, "recvmmsg", 5), (20, "sendmmsg", 4)]

/-- the kernel performs call `name` with arguments `args`, which are the words at `p` -/
def SocketDoes (rd : Nat → Option Nat) (call p : Nat) (name : String) (args : List Nat) : Prop :=
  ∃ n, (call, name, n) ∈ socketCalls ∧ args.length = n ∧ ∀ i, i < n → rd (p + 4 * i) = args[i]?

/-- an argument of the programming interface: an `int` or `long`, an unsigned number (or flags), a pointer; each given by
its 32 bits -/
inductive Arg
  | int (v : Nat)
  | uns (v : Nat)
  | ptr (v : Nat)

/-- the calls of the programming interface -/
inductive Api
  | semop (semid sops nsops : Nat)
  | semget (key nsems flg : Nat)
  | semctl (semid semnum cmd arg : Nat)
  | semtimedop (semid sops nsops timeout : Nat)
  | msgsnd (msqid msgp msgsz msgflg : Nat)
  | msgrcv (msqid msgp msgsz msgtyp msgflg : Nat)
  | msgget (key msgflg : Nat)
  | msgctl (msqid cmd buf : Nat)
  | shmat (shmid shmaddr shmflg : Nat)
  | shmdt (shmaddr : Nat)
  | shmget (key size shmflg : Nat)
  | shmctl (shmid cmd buf : Nat)

/-- the arguments in the order of the manual -/
def Api.args : Api → List Arg
  | .semop a b c => [.int a, .ptr b, .uns c]
  | .semget a b c => [.uns a, .int b, .uns c]
  | .semctl a b c d => [.int a, .int b, .uns c, .ptr d]
  | .semtimedop a b c d => [.int a, .ptr b, .uns c, .ptr d]
  | .msgsnd a b c d => [.int a, .ptr b, .uns c, .uns d]
  | .msgrcv a b c d e => [.int a, .ptr b, .uns c, .int d, .uns e]
  | .msgget a b => [.uns a, .uns b]
  | .msgctl a b c => [.int a, .uns b, .ptr c]
  | .shmat a b c => [.int a, .ptr b, .uns c]
  | .shmdt a => [.ptr a]
  | .shmget a b c => [.uns a, .uns b, .uns c]
  | .shmctl a b c => [.int a, .uns b, .ptr c]

/-- ipc(call, first, second, third, ptr, fifth) performs a call of the interface.  The number is the low half of `call`, the
version its high half.  `semctl` takes its last argument, and `msgrcv` of version 0 two of its arguments, from memory at
`ptr`. -/
inductive IpcDoes (rd : Nat → Option Nat) : (call first second third ptr fifth : Nat) → Api → Prop
  | semop {v a b c p f : Nat} : IpcDoes rd (v * 65536 + 1) a b c p f (.semop a p b)
  | semget {v a b c p f : Nat} : IpcDoes rd (v * 65536 + 2) a b c p f (.semget a b c)
  | semctl {v a b c p f x : Nat} : rd p = some x → IpcDoes rd (v * 65536 + 3) a b c p f (.semctl a b c x)
  | semtimedop {v a b c p f : Nat} : IpcDoes rd (v * 65536 + 4) a b c p f (.semtimedop a p b f)
  | msgsnd {v a b c p f : Nat} : IpcDoes rd (v * 65536 + 11) a b c p f (.msgsnd a p b c)
  | msgrcv0 {a b c p f m t : Nat} : rd p = some m → rd (p + 4) = some t → IpcDoes rd 12 a b c p f (.msgrcv a m b t c)
  | msgrcv {v a b c p f : Nat} : v ≠ 0 → IpcDoes rd (v * 65536 + 12) a b c p f (.msgrcv a p b f c)
  | msgget {v a b c p f : Nat} : IpcDoes rd (v * 65536 + 13) a b c p f (.msgget a b)
  | msgctl {v a b c p f : Nat} : IpcDoes rd (v * 65536 + 14) a b c p f (.msgctl a b p)
  | shmat {v a b c p f : Nat} : IpcDoes rd (v * 65536 + 21) a b c p f (.shmat a p b)
  | shmdt {v a b c p f : Nat} : IpcDoes rd (v * 65536 + 22) a b c p f (.shmdt p)
  | shmget {v a b c p f : Nat} : IpcDoes rd (v * 65536 + 23) a b c p f (.shmget a b c)
  | shmctl {v a b c p f : Nat} : IpcDoes rd (v * 65536 + 24) a b c p f (.shmctl a b p)

/-- the number of the call in the tables of ipc -/
def Api.number : Api → Nat
  | .semop .. => 1
  | .semget .. => 2
  | .semctl .. => 3
  | .semtimedop .. => 4
  | .msgsnd .. => 11
  | .msgrcv .. => 12
  | .msgget .. => 13
  | .msgctl .. => 14
  | .shmat .. => 21
  | .shmdt .. => 22
  | .shmget .. => 23
  | .shmctl .. => 24

/-- how an argument ought to look: an `int` with its sign -/
def Shows : Arg → Item → Prop
  | .int v, .int w => (w - v) % 2 ^ 32 = 0 ∧ -2 ^ 31 ≤ w ∧ w < 2 ^ 31
  | .uns v, .uns w => v = w
  | .ptr v, .ptr w => v = w
  | _, _ => False

/-- item by item -/
inductive ShowsAll : List Arg → List Item → Prop
  | nil : ShowsAll [] []
  | cons {a : Arg} {i : Item} {as : List Arg} {is : List Item} : Shows a i → ShowsAll as is → ShowsAll (a :: as) (i :: is)

/-! ### Socket calls -/

theorem words_iff (rd : Nat → Option Nat) (n addr : Nat) (l : List Nat) :
    words rd addr n = some l ↔ l.length = n ∧ ∀ i, i < n → rd (addr + 4 * i) = l[i]? := by
  induction n generalizing addr l with
  | zero =>
    simp only [words, Option.some.injEq]
    constructor
    · rintro rfl; simp
    · rintro ⟨h, _⟩; exact (List.length_eq_zero_iff.1 h).symm
  | succ n ih =>
    unfold words
    constructor
    · intro h
      split at h
      · rename_i w ws h1 h2
        cases h
        have := (ih _ _).1 h2
        refine ⟨by simp [this.1], fun i hi => ?_⟩
        cases i with
        | zero => simpa using h1
        | succ i =>
          have := this.2 i (by omega)
          rw [show addr + 4 * (i + 1) = addr + 4 + 4 * i by omega, this]; simp
      · cases h
    · rintro ⟨h1, h2⟩
      cases l with
      | nil => simp at h1
      | cons w ws =>
        have h0 := h2 0 (by omega)
        simp at h0 h1
        have : words rd (addr + 4) n = some ws := (ih _ _).2 ⟨h1, fun i hi => by
          have := h2 (i + 1) (by omega)
          rw [show addr + 4 + 4 * i = addr + 4 * (i + 1) by omega, this]; simp⟩
        rw [h0, this]

theorem tab_iff (k : Nat) (n : Nat) (name : String) : socketTab[k]? = some (n, name) ↔ (k + 1, name, n) ∈ socketCalls := by
  have h : ∀ k, k < 20 → ∀ e, e ∈ socketTab[k]? → (k + 1, e.2, e.1) ∈ socketCalls := by decide +kernel
  have h' : ∀ e ∈ socketCalls, e.1 ≥ 1 ∧ socketTab[e.1 - 1]? = some (e.2.2, e.2.1) := by decide +kernel
  constructor
  · intro hk
    have hlt : k < 20 := by
      have := (List.getElem?_eq_some_iff.1 hk).1
      exact this
    exact h k hlt _ hk
  · intro hk
    simpa using (h' _ hk).2

/-- **C77, socketcall.** It is shown as `name(args)` exactly if that is what the kernel performs. -/
theorem socket_shown (rd : Nat → Option Nat) (call p : Nat) (hc : call < 2 ^ 32) (name : String) (args : List Nat) :
    socketSubcall rd call p = some (name, args) ↔ SocketDoes rd call p name args := by
  unfold socketSubcall SocketDoes socketNsubcalls
  have hs : s32 call = if call < 2 ^ 31 then (call : Int) else (call : Int) - 2 ^ 32 := by unfold s32; split <;> omega
  have hr : ∀ e ∈ socketCalls, 1 ≤ e.1 ∧ e.1 ≤ 20 := by decide +kernel
  dsimp only
  by_cases hb : 1 ≤ call ∧ call ≤ 20
  · rw [if_pos (by omega)] at hs
    rw [hs, if_neg (by omega), show ((call : Int).toNat - 1) = call - 1 by omega]
    constructor
    · intro h
      split at h
      · cases h
      · rename_i n nm hk
        simp only [Option.map_eq_some_iff, Prod.mk.injEq] at h
        obtain ⟨l, hl, rfl, rfl⟩ := h
        have := (tab_iff _ _ _).1 hk
        rw [show call - 1 + 1 = call by omega] at this
        exact ⟨n, this, (words_iff _ _ _ _).1 hl⟩
    · rintro ⟨n, h1, h2⟩
      have hk := (tab_iff (call - 1) n name).2 (by rwa [show call - 1 + 1 = call by omega])
      rw [hk]
      dsimp only
      rw [(words_iff _ _ _ _).2 h2]
      rfl
  · rw [if_pos]
    · constructor
      · intro h; cases h
      · rintro ⟨n, h, _⟩; exact absurd (hr _ h) (by omega)
    · rw [hs]; split <;> omega

/-! ### System V IPC -/

theorem shows_int (v : Nat) : Shows (.int v) (.int (s32 v)) := by
  unfold Shows s32; omega

theorem ipc_decode (u : Nat → Nat) (v c n : Nat) (h0 : u 0 = v * 65536 + c) (hv : v < 65536) (hc : (c, n) ∈ ipcTab) :
    ipcSubcall u = some (c, v, fun i => if i < n then u (i + 1) else u i) := by
  have hlt : ∀ e ∈ ipcTab, e.1 < 65536 := by decide +kernel
  have hc' : c < 65536 := hlt _ hc
  have hf : ∀ e ∈ ipcTab, (ipcTab.find? fun x => x.1 == e.1) = some e := by decide +kernel
  unfold ipcSubcall
  have e1 : u 0 % 2 ^ 32 = u 0 := Nat.mod_eq_of_lt (by omega)
  have e2 : u 0 >>> 16 = v := by rw [Nat.shiftRight_eq_div_pow, h0]; omega
  have e3 : (if v ≠ 0 then u 0 &&& 0xffff else u 0) = c := by
    split
    · rw [show (0xffff : Nat) = 2 ^ 16 - 1 from rfl, Nat.and_two_pow_sub_one_eq_mod, h0]; omega
    · rw [h0]; omega
  dsimp only
  rw [e1, e2, e3, hf _ hc]

/-- what `ipc` is shown as -/
def ipcText (rd rx : Nat → Option Nat) (u : Nat → Nat) : Option (Nat × List Item) :=
  (ipcSubcall u).map fun r => (r.1, ipcShown rd rx true r.2.1 r.1 r.2.2)

/-- **C77, ipc.** It is shown as the call the kernel performs, with its arguments.  Missing: `semctl` commands that are
shown on exit, if the version is not 0, see `semctl_version`; and `msgrcv` of version 0 if the two words that the kernel
read on entry are no longer there on exit, see `msgrcv_changed`. -/
theorem ipc_shown_partial (rd rx : Nat → Option Nat) (u : Nat → Nat) (api : Api) (h32 : u 0 < 2 ^ 32)
    (h : IpcDoes rd (u 0) (u 1) (u 2) (u 3) (u 4) (u 5) api)
    (hs : ∀ a b c d, api = .semctl a b c d → u 0 / 65536 = 0 ∨ (c % 2 ^ 32 &&& (2 ^ 32 - 1 - 0x100)) ∉ semExit)
    (hm : u 0 = 12 → rx (u 4) = rd (u 4) ∧ rx (u 4 + 4) = rd (u 4 + 4)) :
    ∃ items, ipcText rd rx u = some (api.number, items) ∧ ShowsAll api.args items := by
  have key : ∀ v c n, u 0 = v * 65536 + c → (c, n) ∈ ipcTab → api.number = c →
      ipcText rd rx u = some (api.number, ipcShown rd rx true v c fun i => if i < n then u (i + 1) else u i) := by
    intro v c n h0 hc hn
    unfold ipcText
    rw [ipc_decode u v c n h0 (by omega) hc, hn]
    rfl
  generalize e0 : u 0 = u0 at h
  generalize e1 : u 1 = u1 at h
  generalize e2 : u 2 = u2 at h
  generalize e3 : u 3 = u3 at h
  generalize e4 : u 4 = u4 at h
  generalize e5 : u 5 = u5 at h
  cases h with
  | @semop v =>
    refine ⟨_, key v 1 4 e0 (by decide) rfl, ?_⟩
    simp only [ipcShown, Api.args, if_true, Nat.lt_irrefl, Nat.reduceLT, Nat.reduceAdd, e1, e2, e3, e4, e5]
    exact .cons (shows_int _) (.cons rfl (.cons rfl .nil))
  | @semget v =>
    refine ⟨_, key v 2 3 e0 (by decide) rfl, ?_⟩
    simp only [ipcShown, Api.args, if_true, Nat.lt_irrefl, Nat.reduceLT, Nat.reduceAdd, e1, e2, e3, e4, e5]
    exact .cons rfl (.cons (shows_int _) (.cons rfl .nil))
  | @semctl v _ _ _ _ _ x hx =>
    refine ⟨_, key v 3 4 e0 (by decide) rfl, ?_⟩
    simp only [ipcShown, Api.args, if_true, Nat.lt_irrefl, Nat.reduceLT, Nat.reduceAdd, e1, e2, e3, e4, e5, hx]
    have := hs _ _ _ _ rfl
    rw [if_neg]
    · exact .cons (shows_int _) (.cons (shows_int _) (.cons rfl (.cons rfl .nil)))
    · rintro ⟨h1, h2⟩
      rcases this with h | h
      · omega
      · exact h h1
  | @semtimedop v =>
    refine ⟨_, key v 4 5 e0 (by decide) rfl, ?_⟩
    simp only [ipcShown, Api.args, if_true, Nat.lt_irrefl, Nat.reduceLT, Nat.reduceAdd, e1, e2, e3, e4, e5]
    exact .cons (shows_int _) (.cons rfl (.cons rfl (.cons rfl .nil)))
  | @msgsnd v =>
    refine ⟨_, key v 11 4 e0 (by decide) rfl, ?_⟩
    simp only [ipcShown, Api.args, if_true, Nat.lt_irrefl, Nat.reduceLT, Nat.reduceAdd, e1, e2, e3, e4, e5]
    exact .cons (shows_int _) (.cons rfl (.cons rfl (.cons rfl .nil)))
  | @msgrcv0 _ _ _ _ _ m t h1 h2 =>
    obtain ⟨x1, x2⟩ := hm e0
    rw [e4] at x1 x2
    rw [h1] at x1
    rw [h2] at x2
    refine ⟨_, key 0 12 5 (by omega) (by decide) rfl, ?_⟩
    simp only [ipcShown, Api.args, if_true, Nat.lt_irrefl, Nat.reduceLT, Nat.reduceAdd, e1, e2, e3, e4, e5, x1, x2, ne_eq,
      not_true_eq_false, if_false]
    exact .cons (shows_int _) (.cons rfl (.cons rfl (.cons (shows_int _) (.cons rfl .nil))))
  | @msgrcv v _ _ _ _ _ hv =>
    refine ⟨_, key v 12 5 e0 (by decide) rfl, ?_⟩
    simp only [ipcShown, Api.args, if_true, Nat.lt_irrefl, Nat.reduceLT, Nat.reduceAdd, e1, e2, e3, e4, e5, ne_eq, hv,
      not_false_eq_true]
    exact .cons (shows_int _) (.cons rfl (.cons rfl (.cons (shows_int _) (.cons rfl .nil))))
  | @msgget v =>
    refine ⟨_, key v 13 2 e0 (by decide) rfl, ?_⟩
    simp only [ipcShown, Api.args, if_true, Nat.lt_irrefl, Nat.reduceLT, Nat.reduceAdd, e1, e2, e3, e4, e5]
    exact .cons rfl (.cons rfl .nil)
  | @msgctl v =>
    refine ⟨_, key v 14 4 e0 (by decide) rfl, ?_⟩
    simp only [ipcShown, Api.args, if_true, Nat.lt_irrefl, Nat.reduceLT, Nat.reduceAdd, e1, e2, e3, e4, e5]
    exact .cons (shows_int _) (.cons rfl (.cons rfl .nil))
  | @shmat v =>
    refine ⟨_, key v 21 4 e0 (by decide) rfl, ?_⟩
    simp only [ipcShown, Api.args, if_true, Nat.lt_irrefl, Nat.reduceLT, Nat.reduceAdd, e1, e2, e3, e4, e5]
    exact .cons (shows_int _) (.cons rfl (.cons rfl .nil))
  | @shmdt v =>
    refine ⟨_, key v 22 4 e0 (by decide) rfl, ?_⟩
    simp only [ipcShown, Api.args, if_true, Nat.lt_irrefl, Nat.reduceLT, Nat.reduceAdd, e1, e2, e3, e4, e5]
    exact .cons rfl .nil
  | @shmget v =>
    refine ⟨_, key v 23 3 e0 (by decide) rfl, ?_⟩
    simp only [ipcShown, Api.args, if_true, Nat.lt_irrefl, Nat.reduceLT, Nat.reduceAdd, e1, e2, e3, e4, e5]
    exact .cons rfl (.cons rfl (.cons rfl .nil))
  | @shmctl v =>
    refine ⟨_, key v 24 4 e0 (by decide) rfl, ?_⟩
    simp only [ipcShown, Api.args, if_true, Nat.lt_irrefl, Nat.reduceLT, Nat.reduceAdd, e1, e2, e3, e4, e5]
    exact .cons (shows_int _) (.cons rfl (.cons rfl .nil))

/-- numbers that are not calls are left alone: `ipc` is shown with the registers as they are -/
theorem ipc_other (u : Nat → Nat) (h32 : u 0 < 2 ^ 32) (h : u 0 % 65536 ∉ [1, 2, 3, 4, 11, 12, 13, 14, 21, 22, 23, 24]) :
    ipcSubcall u = none := by
  unfold ipcSubcall
  dsimp only
  have e1 : u 0 % 2 ^ 32 = u 0 := Nat.mod_eq_of_lt h32
  have e2 : u 0 >>> 16 = u 0 / 65536 := by rw [Nat.shiftRight_eq_div_pow]
  have e3 : (if u 0 / 65536 ≠ 0 then u 0 &&& 0xffff else u 0) = u 0 % 65536 := by
    split
    · rw [show (0xffff : Nat) = 2 ^ 16 - 1 from rfl, Nat.and_two_pow_sub_one_eq_mod]
    · omega
  rw [e1, e2, e3]
  have : (ipcTab.find? fun e => e.1 == u 0 % 65536) = none := by
    rw [List.find?_eq_none]
    intro e he hx
    have : ∀ e ∈ ipcTab, e.1 ∈ [1, 2, 3, 4, 11, 12, 13, 14, 21, 22, 23, 24] := by decide +kernel
    have := this e he
    rw [show e.1 = u 0 % 65536 by simpa using hx] at this
    exact h this
  rw [this]

/-- the arguments of a direct call, in registers in the order of the manual -/
def regOf : Arg → Nat
  | .int v => v
  | .uns v => v
  | .ptr v => v

/-- **C77, direct calls.** The same decoders show a call that is not multiplexed. -/
theorem direct_shown (rd rx : Nat → Option Nat) (u : Nat → Nat) (api : Api)
    (h : ∀ i, (api.args.map regOf)[i]? = none ∨ (api.args.map regOf)[i]? = some (u i)) :
    ShowsAll api.args (ipcShown rd rx false 0 api.number u) := by
  have h0 := h 0
  have h1 := h 1
  have h2 := h 2
  have h3 := h 3
  have h4 := h 4
  cases api <;> simp [Api.args, regOf] at h0 h1 h2 h3 h4 <;> subst_vars <;>
    simp only [Api.args, Api.number, ipcShown, Bool.false_eq_true, if_false, ne_eq, not_true_eq_false, and_false, List.cons_append,
      List.nil_append] <;>
    repeat' first | exact .nil | refine .cons (shows_int _) ?_ | refine .cons rfl ?_

/-- the value of `shmat` through `ipc` is the address that the kernel stored at `third` -/
theorem shmat_value (rx : Nat → Option Nat) (u : Nat → Nat) (v rval addr : Nat) (hv : v < 65536) (h0 : u 0 = v * 65536 + 21)
    (hr : rx (u 3) = some addr) :
    ∃ r, ipcSubcall u = some r ∧ shmatValue rx true r.2.2 rval = some addr := by
  refine ⟨_, ipc_decode u v 21 4 h0 hv (by decide), ?_⟩
  simpa [shmatValue] using hr

/-- **Finding.** With a version in the call number, `semctl(…, IPC_STAT, …)` is shown with the version in place of the
address of the buffer: the private datum of the tracee is already in use. -/
theorem semctl_version : ∃ (rd : Nat → Option Nat) (u : Nat → Nat), IpcDoes rd (u 0) (u 1) (u 2) (u 3) (u 4) (u 5) (.semctl 7 0 2 12288) ∧
    ipcText rd rd u = some (3, [.int 7, .int 0, .uns 2, .ptr 1]) := by
  refine ⟨fun a => if a = 4096 then some 12288 else none, fun i => [65539, 7, 0, 2, 4096, 0].getD i 0, ?_, by decide +kernel⟩
  exact .semctl (v := 1) (by decide)

/-- **Finding.** `msgrcv` of version 0 is shown with what is at `ptr` on exit: if the words there change during the call (the
message may well overwrite them), other arguments are shown than the kernel used. -/
theorem msgrcv_changed : ∃ (rd rx : Nat → Option Nat) (u : Nat → Nat),
    IpcDoes rd (u 0) (u 1) (u 2) (u 3) (u 4) (u 5) (.msgrcv 7 12288 16 1 0) ∧
    ipcText rd rx u = some (12, [.int 7, .ptr 0, .uns 16, .int 5, .uns 0]) := by
  refine ⟨fun a => if a = 4096 then some 12288 else some 1, fun a => if a = 4096 then some 0 else some 5,
    fun i => [12, 7, 16, 0, 4096, 0].getD i 0, ?_, by decide +kernel⟩
  exact .msgrcv0 (by decide) (by decide)

/-! ### Witnesses -/

example : SocketDoes (fun a => if a = 100 then some 2 else if a = 104 then some 1 else if a = 108 then some 0 else none) 1 100 "socket" [2, 1, 0] := by
  refine ⟨3, by decide, rfl, ?_⟩
  intro i hi
  match i, hi with
  | 0, _ => rfl
  | 1, _ => rfl
  | 2, _ => rfl
example : IpcDoes (fun a => if a = 8 then some 64 else some 4294967295) 12 5 100 0 8 9 (.msgrcv 5 64 100 4294967295 0) := .msgrcv0 rfl rfl
example : ipcText (fun _ => none) (fun a => if a = 8 then some 64 else some 4294967295) (fun i => [12, 5, 100, 0, 8, 9].getD i 0) =
    some (12, [.int 5, .ptr 64, .uns 100, .int (-1), .uns 0]) := by decide +kernel

end Strace.Args
