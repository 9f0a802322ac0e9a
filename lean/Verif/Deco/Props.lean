import Verif.Deco.Lemmas
/-!
# C105: what is shown of a descriptor is what it refers to
-/
namespace Strace.Deco
open Strace.Base Strace.Lead

theorem t_event : txt "anon_inode:[eventfd]" = eventfdPath := by decide +kernel
theorem t_pid : txt "anon_inode:[pidfd]" = pidfdPath := by decide +kernel
theorem t_sig : txt "anon_inode:[signalfd]" = signalfdPath := by decide +kernel
theorem t_tty : txt "tty-index:\t" = ttySearch.pfx := by decide +kernel
theorem t_count : txt "eventfd-count:" = countSearch.pfx := by decide +kernel
theorem t_id : txt "eventfd-id:" = idSearch.pfx := by decide +kernel
theorem t_sem : txt "eventfd-semaphore:" = semSearch.pfx := by decide +kernel
theorem t_Pid : txt "Pid:\t" = pidSearch.pfx := by decide +kernel
theorem t_mask : txt "sigmask:\t" = maskSearch.pfx := by decide +kernel
theorem t_pidfs : txt "pidfd:[" = [112, 105, 100, 102, 100, 58, 91] := by decide +kernel
theorem t_sock : txt "socket:[" = [115, 111, 99, 107, 101, 116, 58, 91] := by decide +kernel
theorem t_close : txt "]" = [93] := by decide +kernel

theorem ptmx_iff (d : Dev) : isPtmx d = true ↔ Ptmx d := by
  unfold isPtmx Ptmx
  simp [and_assoc]

/-- a path that does not begin like a socket has no inode -/
theorem no_inode (p : List Nat) (h : p.head? ≠ some 115) : Diag.inodeOfPath p = 0 := by
  unfold Diag.inodeOfPath Diag.startsWith
  rw [Diag.chars_socket, if_neg]
  intro h1
  apply h
  have := h1.1
  cases p with
  | nil => simp at this
  | cons a t => simp at this; simp [this.1]

theorem sock_head (i : Nat) : (linkText (.sock i)).head? = some 115 := by simp [linkText, t_sock]
theorem sock_inode (i : Nat) (h0 : 0 < i) (h : i < 2 ^ 64) : Diag.inodeOfPath (linkText (.sock i)) = i := Diag.inode_of_link i h0 h

/-- the first character of a link -/
theorem link_head (o : Obj) (ho : o.Ok) : (linkText o).head? = some (match o with
    | .file _ _ => 47
    | .dev _ _ _ _ => 47
    | .sock _ => 115
    | .pidfd (some _) _ => 112
    | _ => 97) := by
  cases o with
  | file p b => exact ho
  | dev p b d t => exact ho.1
  | sock i => exact sock_head i
  | event c id sem => simp only [linkText, t_event]; rfl
  | pidfd i p =>
    cases i with
    | none => simp only [linkText, t_pid]; rfl
    | some i => simp [linkText, t_pidfs]
  | sigfd m => simp only [linkText, t_sig]; rfl

theorem not_event (o : Obj) (ho : o.Ok) (h : ∀ c id sem, o ≠ .event c id sem) : linkText o ≠ eventfdPath := by
  have hh := link_head o ho
  intro e
  rw [e] at hh
  cases o with
  | file p b => cases hh
  | dev p b d t => cases hh
  | sock i => cases hh
  | event c id sem => exact absurd rfl (h c id sem)
  | pidfd i p =>
    cases i with
    | none => simp only [linkText, t_pid] at e; revert e; decide
    | some i => cases hh
  | sigfd m => simp only [linkText, t_sig] at e; revert e; decide

theorem not_sig (o : Obj) (ho : o.Ok) (h : ∀ m, o ≠ .sigfd m) : linkText o ≠ signalfdPath := by
  have hh := link_head o ho
  intro e
  rw [e] at hh
  cases o with
  | file p b => cases hh
  | dev p b d t => cases hh
  | sock i => cases hh
  | event c id sem => simp only [linkText, t_event] at e; revert e; decide
  | pidfd i p =>
    cases i with
    | none => simp only [linkText, t_pid] at e; revert e; decide
    | some i => cases hh
  | sigfd m => exact absurd rfl (h m)

theorem pfx_head (p : List Nat) (h : p.take pidfsPfx.length = pidfsPfx) : p.head? = some 112 := by
  cases p with
  | nil => simp [pidfsPfx] at h
  | cons a t => simp [pidfsPfx] at h; simp [h.1]

theorem not_pid (o : Obj) (ho : o.Ok) (h : ∀ i p, o ≠ .pidfd i p) :
    (linkText o).take pidfsPfx.length ≠ pidfsPfx ∧ linkText o ≠ pidfdPath := by
  have hh := link_head o ho
  constructor
  · intro e
    rw [pfx_head _ e] at hh
    cases o with
    | pidfd i p => exact absurd rfl (h i p)
    | _ => cases hh
  · intro e
    rw [e] at hh
    cases o with
    | file p b => cases hh
    | dev p b d t => cases hh
    | sock i => cases hh
    | event c id sem => simp only [linkText, t_event] at e; revert e; decide
    | pidfd i p => exact absurd rfl (h i p)
    | sigfd m => simp only [linkText, t_sig] at e; revert e; decide

theorem not_sock (o : Obj) (ho : o.Ok) (h : ∀ i, o ≠ .sock i) : Diag.inodeOfPath (linkText o) = 0 := by
  apply no_inode
  rw [link_head o ho]
  cases o with
  | sock i => exact absurd rfl (h i)
  | pidfd i p => cases i <;> simp
  | _ => simp

theorem not_dev (w : World) (pid fd : Nat) (o : Obj) (ho : o.Ok) (hw : NameHolds w o) (h : ∀ p b d t, o ≠ .dev p b d t) :
    devOf w pid fd (linkText o) none = none := by
  have hh := link_head o ho
  unfold devOf finfoFor
  simp only [Option.getD_none]
  rw [hh]
  cases o with
  | file p b =>
    have : w.stat (linkText (.file p b)) = none := hw
    simp [this]
  | dev p b d t => exact absurd rfl (h p b d t)
  | sock i => simp
  | event c id sem => simp
  | pidfd i p => cases i <;> simp
  | sigfd m => simp

/-- what the decoders say of each kind of object -/
theorem sock_own (w : World) (pid fd i : Nat) (h0 : 0 < i) (h : i < 2 ^ 64) :
    socketOf w pid fd (linkText (.sock i)) = some (.plain ((w.details i (w.proto pid fd)).getD (linkText (.sock i)))) := by
  unfold socketOf
  rw [sock_inode i h0 h, if_neg (by omega)]

theorem dev_own (w : World) (pid fd : Nat) (p : List Nat) (b : Bool) (d : Dev) (t : Option Nat) (ho : (Obj.dev p b d t).Ok)
    (hw : w.stat p = some d) (ls : List (List Nat)) (hl : ∀ l ∈ ls, 10 ∉ l) (hf : w.fdinfo pid fd = some (fileText ls))
    (hi : Tells ls (txt "tty-index:\t") (t.map dec)) : devOf w pid fd p none = some (.dev p d t) := by
  have hfi : finfoFor w pid fd p = ⟨p, some d, if isPtmx d = true then t else none, false⟩ := by
    unfold finfoFor
    rw [if_neg (by rw [ho.1]; simp), hw]
    simp only
    congr 1
    by_cases hp : isPtmx d = true
    · rw [if_pos hp, if_pos hp, hf, scan1_tells ttySearch ls hl (t.map dec) (by decide) (by decide) (fun _ _ => rfl) (by rw [← t_tty]; exact hi)]
      cases t with
      | none => rfl
      | some n =>
        simp only [Option.map_some, Option.bind_some]
        exact number_dec [] (by simp) n (ho.2 n rfl).2
    · rw [if_neg hp, if_neg hp]
  unfold devOf
  simp only [Option.getD_none, hfi]
  congr 2
  by_cases hp : isPtmx d = true
  · rw [if_pos hp, if_pos hp]
  · rw [if_neg hp]
    cases t with
    | none => rfl
    | some n => exact absurd ((ptmx_iff d).mpr (ho.2 n rfl).1) hp

theorem event_own (w : World) (pid fd c : Nat) (id sem : Option Nat) (ho : (Obj.event c id sem).Ok) (ls : List (List Nat))
    (hl : ∀ l ∈ ls, 10 ∉ l) (hf : w.fdinfo pid fd = some (fileText ls)) (hi : Info ls (.event c id sem)) :
    eventfdOf w pid fd eventfdPath = some (.event (hex c) id sem) := by
  obtain ⟨⟨n, h1⟩, h2, h3⟩ := hi
  rw [t_count] at h1; rw [t_id] at h2; rw [t_sem] at h3
  unfold eventfdOf
  rw [if_neg (by simp), hf, scan_first ls hl _ apart_event]
  simp only [List.map_cons, List.map_nil]
  rw [first_tells countSearch ls _ (by decide) (by decide) (fun _ _ => rfl) h1,
    first_tells idSearch ls _ (by decide) (by decide) (fun _ _ => rfl) h2,
    first_tells semSearch ls _ (by decide) (by decide) (fun _ _ => rfl) h3]
  have e1 : ((some (List.replicate n 32 ++ hex c)).map (· ++ [10])).bind counter = some (hex c) := by
    simp only [Option.map_some, Option.bind_some]; exact counter_hex n c
  have num : ∀ o : Option Nat, (∀ n, o = some n → n < 2 ^ 31) →
      ((o.map fun n => 32 :: dec n).map (· ++ [10])).bind number = o := by
    intro o h
    cases o with
    | none => rfl
    | some n =>
      simp only [Option.map_some, Option.bind_some]
      exact number_dec [32] (by intro c hc; simp at hc; subst hc; decide) n (h n rfl)
  rw [e1, num id ho.1, num sem (fun n hn => (ho.2 n hn).1)]
  simp only [eventFields]
  congr 2
  cases sem with
  | none => simp
  | some s =>
    have := (ho.2 s rfl).2
    cases id with
    | none => exact absurd rfl this
    | some _ => rfl

theorem pid_own (w : World) (pid fd : Nat) (i : Option Nat) (p : Int) (ho : (Obj.pidfd i p).Ok) (ls : List (List Nat))
    (hl : ∀ l ∈ ls, 10 ∉ l) (hf : w.fdinfo pid fd = some (fileText ls)) (hi : Info ls (.pidfd i p)) :
    pidfdPid w pid fd = (if p < 0 then none else some p.toNat) := by
  have hi : Tells ls (txt "Pid:\t") (some (decI p)) := hi
  rw [t_Pid] at hi
  unfold pidfdPid
  rw [hf, scan1_tells pidSearch ls hl _ (by decide) (by decide) (fun _ _ => rfl) hi]
  simp only [Option.map_some, Option.bind_some]
  by_cases h : p < 0
  · have : p = -1 := by have := ho.1; omega
    subst this
    rw [if_pos h]; exact number_minus
  · rw [if_neg h]
    unfold decI
    rw [if_neg h]
    have := number_dec [] (by simp) p.natAbs (by have := ho.2; omega)
    rw [List.nil_append] at this
    rw [this]
    congr 1
    omega

theorem pidfd_own (w : World) (pid fd : Nat) (i : Option Nat) (p : Int) (ho : (Obj.pidfd i p).Ok) (ls : List (List Nat))
    (hl : ∀ l ∈ ls, 10 ∉ l) (hf : w.fdinfo pid fd = some (fileText ls)) (hi : Info ls (.pidfd i p)) :
    pidfdOf w pid fd (linkText (.pidfd i p)) = some (if 0 < p then .pid p.toNat else .plain (linkText (.pidfd i p))) := by
  unfold pidfdOf
  rw [if_neg, pid_own w pid fd i p ho ls hl hf hi]
  · by_cases h : p < 0
    · rw [if_pos h, if_neg (by omega)]
    · rw [if_neg h]
      simp only
      by_cases h2 : 0 < p
      · rw [if_pos (by omega), if_pos h2]
      · rw [if_neg (by omega), if_neg h2]
  · intro h
    cases i with
    | none => exact h.2 (by simp only [linkText]; exact t_pid)
    | some i => apply h.1; simp [linkText, t_pidfs, pidfsPfx]

theorem sig_own (w : World) (pid fd m : Nat) (h : m < 2 ^ 64) (ls : List (List Nat))
    (hl : ∀ l ∈ ls, 10 ∉ l) (hf : w.fdinfo pid fd = some (fileText ls)) (hi : Info ls (.sigfd m)) :
    signalfdOf w pid fd signalfdPath = some (.sig (bytes8 m)) := by
  have hi : Tells ls (txt "sigmask:\t") (some (hexPad 16 m)) := hi
  rw [t_mask] at hi
  unfold signalfdOf
  rw [if_neg (by simp), hf, scan1_tells maskSearch ls hl _ (by decide) (by decide) (by
    intro u hu; injection hu with hu; subst hu
    show (maskBytes _).isSome = true
    rw [mask_line m h]; rfl) hi]
  simp only [Option.map_some, Option.bind_some, mask_line m h]

theorem choose_wanted (w : World) (k : Kinds) (tcp pid fd : Nat) (o : Obj) (h : Has w pid fd o)
    (hs : tcp = pid ∨ ((∀ i, o ≠ .sock i) ∧ ∀ p b d t, o = .dev p b d t → ¬ Ptmx d)) :
    choose w k tcp pid fd (linkText o) o.deleted none = wanted k (known w tcp fd o) o := by
  obtain ⟨ho, _, hn, ls, hl, hf, hi⟩ := h
  have ite_none : ∀ (b : Bool) (x : Option Deco), x = none → (if b then x else none) = none := by
    intro b x hx; rw [hx]; cases b <;> rfl
  have hE : (∀ c id sem, o ≠ .event c id sem) → eventfdOf w pid fd (linkText o) = none := by
    intro h; unfold eventfdOf; rw [if_pos (not_event o ho h)]
  have hP : (∀ i p, o ≠ .pidfd i p) → pidfdOf w pid fd (linkText o) = none := by
    intro h; unfold pidfdOf; rw [if_pos (not_pid o ho h)]
  have hG : (∀ m, o ≠ .sigfd m) → signalfdOf w pid fd (linkText o) = none := by
    intro h; unfold signalfdOf; rw [if_pos (not_sig o ho h)]
  have hS : (∀ i, o ≠ .sock i) → socketOf w tcp fd (linkText o) = none := by
    intro h; unfold socketOf; rw [if_pos (not_sock o ho h)]
  have hD : (∀ p b d t, o ≠ .dev p b d t) → devOf w tcp fd (linkText o) none = none := not_dev w tcp fd o ho hn
  unfold choose
  cases o with
  | file p b =>
    rw [ite_none _ _ (hS (by simp)), ite_none _ _ (hD (by simp)), ite_none _ _ (hE (by simp)), ite_none _ _ (hP (by simp)),
      ite_none _ _ (hG (by simp))]
    rfl
  | dev p b d t =>
    have e : devOf w tcp fd p none = some (.dev p d t) := by
      rcases hs with rfl | hs
      · exact dev_own w tcp fd p b d t ho hn ls hl hf hi
      · have hnp := hs.2 p b d t rfl
        have ht : t = none := by
          cases t with
          | none => rfl
          | some n => exact absurd (ho.2 n rfl).1 hnp
        have hq : isPtmx d = false := by
          cases hq : isPtmx d
          · rfl
          · exact absurd ((ptmx_iff d).mp hq) hnp
        have hn' : w.stat p = some d := hn
        unfold devOf finfoFor
        simp only [Option.getD_none]
        rw [if_neg (by rw [ho.1]; simp), hn']
        simp [hq, ht]
    rw [ite_none _ _ (hS (by simp)), ite_none _ _ (hE (by simp)), ite_none _ _ (hP (by simp)), ite_none _ _ (hG (by simp))]
    show (match (if k.dev = true then devOf w tcp fd p none else none) with
      | some d => d
      | none => _) = _
    rw [e]
    unfold wanted
    cases k.dev <;> rfl
  | sock i =>
    rw [ite_none _ _ (hD (by simp)), ite_none _ _ (hE (by simp)), ite_none _ _ (hP (by simp)), ite_none _ _ (hG (by simp)),
      sock_own w tcp fd i ho.1 ho.2]
    unfold wanted
    cases k.sock <;> rfl
  | event c id sem =>
    have e : eventfdOf w pid fd (linkText (.event c id sem)) = some (.event (hex c) id sem) := by
      have := event_own w pid fd c id sem ho ls hl hf hi
      rw [← t_event] at this
      exact this
    rw [ite_none _ _ (hS (by simp)), ite_none _ _ (hD (by simp)), ite_none _ _ (hP (by simp)), ite_none _ _ (hG (by simp)), e]
    unfold wanted
    cases k.event <;> rfl
  | pidfd i p =>
    rw [ite_none _ _ (hS (by simp)), ite_none _ _ (hD (by simp)), ite_none _ _ (hE (by simp)), ite_none _ _ (hG (by simp)),
      pidfd_own w pid fd i p ho ls hl hf hi]
    unfold wanted
    cases k.pid <;> rfl
  | sigfd m =>
    have e : signalfdOf w pid fd (linkText (.sigfd m)) = some (.sig (bytes8 m)) := by
      have := sig_own w pid fd m ho ls hl hf hi
      rw [← t_sig] at this
      exact this
    rw [ite_none _ _ (hS (by simp)), ite_none _ _ (hD (by simp)), ite_none _ _ (hE (by simp)), ite_none _ _ (hP (by simp)), e]
    unfold wanted
    cases k.sig <;> rfl

theorem wanted_none (k : Kinds) (h : k.none = true) (det : Option (List Nat)) (o : Obj) : wanted k det o = .nothing := by
  unfold Kinds.none at h
  simp at h
  obtain ⟨⟨⟨⟨⟨h1, h2⟩, h3⟩, h4⟩, h5⟩, h6⟩ := h
  unfold wanted
  cases o <;> simp [h1, h2, h3, h4, h5, h6]

/-- whose descriptor it is makes no difference, except for sockets and masters of pseudo-terminals -/
theorem decorate_wanted (w : World) (k : Kinds) (tcp pid fd : Nat) (hp : 0 < pid) (o : Obj) (h : Has w pid fd o)
    (hs : tcp = pid ∨ ((∀ i, o ≠ .sock i) ∧ ∀ p b d t, o = .dev p b d t → ¬ Ptmx d)) :
    decorate w k tcp pid fd none = wanted k (known w tcp fd o) o := by
  unfold decorate
  cases hk : k.none with
  | true => rw [wanted_none k hk]; simp
  | false =>
    rw [if_pos ⟨hp, rfl⟩]
    have : linkOf w pid (fd : Int) = some (linkText o, o.deleted) := by
      unfold linkOf; rw [if_neg (by omega)]; exact h.2.1
    simp only [this, Int.toNat_natCast]
    exact choose_wanted w k tcp pid fd o h hs

/-- C105: a descriptor of the process that makes the call is shown with what it refers to, as the kinds that are chosen ask for -/
theorem shown_as_wanted (w : World) (k : Kinds) (tcp fd : Nat) (hp : 0 < tcp) (o : Obj) (h : Has w tcp fd o) :
    printfd w k tcp fd = wanted k (known w tcp fd o) o :=
  decorate_wanted w k tcp tcp fd hp o h (Or.inl rfl)

/-- C105: so it is with ioctl, for any descriptor at all -/
theorem ioctl_same (w : World) (k : Kinds) (b : Bool) (tcp : Nat) (fd : Int) : ioctlFd w k b tcp fd = printfd w k tcp fd := by
  unfold ioctlFd printfd
  cases b with
  | false => rfl
  | true =>
    rw [if_pos rfl]
    cases hl : linkOf w tcp fd with
    | none => rfl
    | some q =>
      obtain ⟨p, del⟩ := q
      simp only
      unfold decorate
      by_cases hc : tcp > 0 ∧ k.none = false
      · rw [if_pos hc, if_pos hc]
        simp only [hl]
        have hpath : (finfoFor w tcp fd.toNat p).path = p := by
          unfold finfoFor; split
          · rfl
          · split <;> rfl
        unfold choose devOf
        simp only [Option.getD_some, Option.getD_none, hpath]
      · rw [if_neg hc, if_neg hc]

/-- C105: a descriptor that is not open, or a number that cannot be one, is shown without anything -/
theorem nothing_known (w : World) (k : Kinds) (tcp pid : Nat) (fd : Int) (h : fd < 0 ∨ w.link pid fd.toNat = none) :
    decorate w k tcp pid fd none = .nothing := by
  unfold decorate linkOf
  split
  · rcases h with h | h
    · rw [if_pos h]
    · split <;> simp_all
  · rfl

/-- C105, partial: the target of pidfd_getfd, a descriptor of another process.  The claim is false for sockets
(`other_socket`) and for masters of pseudo-terminals (`other_tty`). -/
theorem target_partial (w : World) (k : Kinds) (tcp pidfd pid fd : Nat) (i : Option Nat) (hp : 0 < pid)
    (hpid : Has w tcp pidfd (.pidfd i pid)) (o : Obj) (h : Has w pid fd o) (hs : ∀ i, o ≠ .sock i)
    (ht : ∀ p b d t, o = .dev p b d t → ¬ Ptmx d) : getfdTarget w k tcp pidfd fd = wanted k none o := by
  obtain ⟨ho, _, _, ls, hl, hf, hi⟩ := hpid
  unfold getfdTarget
  rw [pid_own w tcp pidfd i pid ho ls hl hf hi, if_neg (by omega)]
  simp only [Int.toNat_natCast]
  rw [if_pos hp, decorate_wanted w k tcp pid fd hp o h (Or.inr ⟨hs, ht⟩)]
  congr 1
  cases o with
  | sock i => exact absurd rfl (hs i)
  | _ => rfl

end Strace.Deco
