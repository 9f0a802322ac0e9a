import Verif.Ring.Spec
import Verif.Memc.Props

/-!
# Proofs about rings and comparisons
-/
namespace Strace.Ring

open Strace.Prctl (Mem umoven number)
open Strace.Ring.Spec

theorem word_eq : Spec.word = Memc.Spec.word := rfl

theorem int_is (a : Nat) : IsInt a (int a) := by
  simp only [IsInt, int]
  have h := Nat.div_add_mod a (2 ^ 32)
  have h2 := Nat.mod_lt a (show 0 < 2 ^ 32 by decide)
  split
  · refine ⟨by omega, by omega, (a / 2 ^ 32 : Nat), by omega⟩
  · refine ⟨by omega, by omega, (a / 2 ^ 32 : Nat) + 1, by omega⟩

theorem int_unique {a : Nat} {u v : Int} (hu : IsInt a u) (hv : IsInt a v) : u = v := by
  obtain ⟨h1, h2, q, h3⟩ := hu
  obtain ⟨h4, h5, r, h6⟩ := hv
  omega

theorem fetch_some {c : Call} {m : Mem} {err : Bool} {p n : Nat} {l : List Nat} (h : fetch c m err p n = some l) :
    umoven m p n = some l := by
  unfold fetch at h
  split at h
  · exact h
  · cases h

theorem fetch_readable {c : Call} {m : Mem} {p n : Nat} (hv : c.verbose = true) (h : Readable m p n) :
    ∃ l, fetch c m false p n = some l := by
  obtain ⟨l, hl, -⟩ := Prctl.umoven_le (m := m) (n := n) (a := p) h.2
  exact ⟨l, by rw [fetch, if_pos ⟨h.1, hv, rfl⟩, hl]⟩

theorem fetch_unreadable {c : Call} {m : Mem} {err : Bool} {p n : Nat} (h : ¬ Readable m p n) : fetch c m err p n = none := by
  unfold fetch
  split
  · rename_i h'
    exact Prctl.umoven_none (fun h2 => h ⟨h'.1, h2⟩)
  · rfl

theorem part {m : Mem} {p n : Nat} {l : List Nat} (h : umoven m p n = some l) {o w : Nat} (ho : o + w ≤ n) :
    number ((l.drop o).take w) = word m (p + o) w := by
  rw [word_eq]
  exact Memc.number_word (Memc.umoven_part h ho)

theorem and_32 (x : Nat) : x &&& 32 ≠ 0 ↔ x.testBit 5 = true := by
  rw [Memc.and_ne_zero_iff]
  constructor
  · rintro ⟨i, h1, h2⟩
    have : i = 5 := by
      rw [show (32 : Nat) = 2 ^ 5 by rfl, Nat.testBit_two_pow] at h2
      simp at h2
      omega
    subst this
    exact h1
  · intro h
    exact ⟨5, h, by decide⟩

/-- Every member is where the model takes it from. -/
theorem value_at {m : Mem} {p : Nat} {l : List Nat} (h : umoven m p 120 = some l) (f : Fld) :
    number ((l.drop (place f)).take (size f)) = value m p f :=
  part h (by cases f <;> decide)

/-- **What a program gives is shown as it is when the call begins**: every member that is given, and no other, with its value;
and the queue of another ring exactly if the flags ask for that. -/
theorem setup_given {c : Call} (hv : c.verbose = true) (hr : Readable c.before (c.arg 1) 120) :
    ∃ t, setupEnter c = (.num (c.arg 0 % 2 ^ 32) :: .opened :: t, false)
      ∧ (∀ f v, .fld f v ∈ t ↔ Given c.before (c.arg 1) f ∧ v = value c.before (c.arg 1) f)
      ∧ (∀ v, .fd v ∈ t ↔ (value c.before (c.arg 1) .flags).testBit 5 = true ∧ IsInt (word c.before (c.arg 1 + 24) 4) v) := by
  obtain ⟨l, hl⟩ := fetch_readable hv hr
  have hu := fetch_some hl
  have e1 : u32 l 8 = value c.before (c.arg 1) .flags := value_at hu .flags
  have e2 : u32 l 12 = value c.before (c.arg 1) .sqThreadCpu := value_at hu .sqThreadCpu
  have e3 : u32 l 16 = value c.before (c.arg 1) .sqThreadIdle := value_at hu .sqThreadIdle
  have e4 : u32 l 28 = value c.before (c.arg 1) .resv0 := value_at hu .resv0
  have e5 : u32 l 32 = value c.before (c.arg 1) .resv1 := value_at hu .resv1
  have e6 : u32 l 36 = value c.before (c.arg 1) .resv2 := value_at hu .resv2
  have e7 : u32 l 24 = word c.before (c.arg 1 + 24) 4 := part hu (by omega)
  refine ⟨[.fld .flags (u32 l 8), .fld .sqThreadCpu (u32 l 12), .fld .sqThreadIdle (u32 l 16)] ++
     (if u32 l 8 &&& 32 ≠ 0 then [.fd (int (u32 l 24))] else []) ++
     (if u32 l 28 ≠ 0 ∨ u32 l 32 ≠ 0 ∨ u32 l 36 ≠ 0 then
        [.fld .resv0 (u32 l 28), .fld .resv1 (u32 l 32), .fld .resv2 (u32 l 36)] else []), ?_, ?_, ?_⟩
  · rw [setupEnter, hl]
    rfl
  · intro f v
    rw [e1, e2, e3, e4, e5, e6]
    have hg : (∃ g, (g = Fld.resv0 ∨ g = .resv1 ∨ g = .resv2) ∧ value c.before (c.arg 1) g ≠ 0)
        ↔ value c.before (c.arg 1) .resv0 ≠ 0 ∨ value c.before (c.arg 1) .resv1 ≠ 0 ∨ value c.before (c.arg 1) .resv2 ≠ 0 := by
      constructor
      · rintro ⟨g, rfl | rfl | rfl, h⟩
        · exact .inl h
        · exact .inr (.inl h)
        · exact .inr (.inr h)
      · rintro (h | h | h)
        · exact ⟨_, .inl rfl, h⟩
        · exact ⟨_, .inr (.inl rfl), h⟩
        · exact ⟨_, .inr (.inr rfl), h⟩
    unfold Given
    rw [hg]
    cases f <;> split <;> split <;> simp_all
  · intro v
    rw [e1, e7]
    have hb' := and_32 (value c.before (c.arg 1) .flags)
    have hi := int_is (word c.before (c.arg 1 + 24) 4)
    constructor
    · intro h
      by_cases hb : (value c.before (c.arg 1) .flags).testBit 5 = true
      · rw [if_pos (hb'.2 hb)] at h
        refine ⟨hb, ?_⟩
        have : v = int (word c.before (c.arg 1 + 24) 4) := by
          split at h <;> simpa using h
        rw [this]
        exact hi
      · rw [if_neg (fun h' => hb (hb'.1 h'))] at h
        split at h <;> simp at h
    · rintro ⟨hb, h⟩
      rw [if_pos (hb'.2 hb), int_unique h hi]
      simp

/-- Parameters that cannot be read are shown by their address, and nothing is shown later. -/
theorem setup_unreadable {c : Call} (hr : ¬ Readable c.before (c.arg 1) 120) :
    setup c = [.num (c.arg 0 % 2 ^ 32), .addr (c.arg 1)] := by
  rw [setup, setupEnter, fetch_unreadable hr]
  rfl

theorem sq_place {m : Mem} {p : Nat} {l : List Nat} (hu : umoven m p 120 = some l) :
    u32 l 40 = value m p .sqHead ∧ u32 l 44 = value m p .sqTail ∧ u32 l 48 = value m p .sqRingMask
    ∧ u32 l 52 = value m p .sqRingEntries ∧ u32 l 56 = value m p .sqFlags ∧ u32 l 60 = value m p .sqDropped
    ∧ u32 l 64 = value m p .sqArray ∧ u32 l 68 = value m p .sqResv1 ∧ u64 l 72 = value m p .sqUserAddr :=
  ⟨value_at hu .sqHead, value_at hu .sqTail, value_at hu .sqRingMask, value_at hu .sqRingEntries, value_at hu .sqFlags,
   value_at hu .sqDropped, value_at hu .sqArray, value_at hu .sqResv1, value_at hu .sqUserAddr⟩

theorem cq_place {m : Mem} {p : Nat} {l : List Nat} (hu : umoven m p 120 = some l) :
    u32 l 80 = value m p .cqHead ∧ u32 l 84 = value m p .cqTail ∧ u32 l 88 = value m p .cqRingMask
    ∧ u32 l 92 = value m p .cqRingEntries ∧ u32 l 96 = value m p .cqOverflow ∧ u32 l 100 = value m p .cqCqes
    ∧ u32 l 104 = value m p .cqFlags ∧ u32 l 108 = value m p .cqResv1 ∧ u64 l 112 = value m p .cqUserAddr :=
  ⟨value_at hu .cqHead, value_at hu .cqTail, value_at hu .cqRingMask, value_at hu .cqRingEntries, value_at hu .cqOverflow,
   value_at hu .cqCqes, value_at hu .cqFlags, value_at hu .cqResv1, value_at hu .cqUserAddr⟩

/-- **What the kernel fills is shown as it is when the call ends**: every member that is filled, and no other, with its value. -/
theorem setup_filled {c : Call} (hv : c.verbose = true) (hf : c.failed = false) (hr : Readable c.after (c.arg 1) 120) (f : Fld) (v : Nat) :
    .fld f v ∈ setupExit c ↔ Filled c.after (c.arg 1) f ∧ v = value c.after (c.arg 1) f := by
  obtain ⟨l, hl⟩ := fetch_readable hv hr
  have hu := fetch_some hl
  have a1 : u32 l 0 = value c.after (c.arg 1) .sqEntries := value_at hu .sqEntries
  have a2 : u32 l 4 = value c.after (c.arg 1) .cqEntries := value_at hu .cqEntries
  have a3 : u32 l 20 = value c.after (c.arg 1) .features := value_at hu .features
  obtain ⟨b1, b2, b3, b4, b5, b6, b7, b8, b9⟩ := sq_place hu
  obtain ⟨d1, d2, d3, d4, d5, d6, d7, d8, d9⟩ := cq_place hu
  rw [setupExit, hf, hl]
  simp only [sqOffsets, cqOffsets, a1, a2, a3, b1, b2, b3, b4, b5, b6, b7, b8, b9, d1, d2, d3, d4, d5, d6, d7, d8, d9]
  unfold Filled
  cases f <;> split <;> split <;> simp_all

/-- After a failure nothing of what the kernel may have written is shown, and the structure is closed. -/
theorem setup_failed {c : Call} (hf : c.failed = true) : setupExit c = [.closed] := by
  rw [setupExit, fetch, if_neg (by simp [hf])]
  rfl

theorem depth_append : ∀ (s t : List Tok) (d : Nat), depth d (s ++ t) = (depth d s).bind fun e => depth e t
  | [], t, d => rfl
  | .opened :: s, t, d => by simpa [depth] using depth_append s t (d + 1)
  | .closed :: s, t, 0 => rfl
  | .closed :: s, t, d + 1 => by simpa [depth] using depth_append s t d
  | .num _ :: s, t, d => by cases d <;> simpa [depth] using depth_append s t _
  | .addr _ :: s, t, d => by cases d <;> simpa [depth] using depth_append s t _
  | .pid _ :: s, t, d => by cases d <;> simpa [depth] using depth_append s t _
  | .fd _ :: s, t, d => by cases d <;> simpa [depth] using depth_append s t _
  | .fdOf _ _ :: s, t, d => by cases d <;> simpa [depth] using depth_append s t _
  | .mask _ :: s, t, d => by cases d <;> simpa [depth] using depth_append s t _
  | .fld _ _ :: s, t, d => by cases d <;> simpa [depth] using depth_append s t _

/-- **Whatever memory holds, when the call begins and when it ends, every structure that is opened is closed.** -/
theorem setup_balanced (c : Call) : depth 0 (setup c) = some 0 := by
  unfold setup setupEnter
  cases fetch c c.before false (c.arg 1) 120 with
  | none => rfl
  | some l =>
    have h1 : ∀ l', depth 1 (sqOffsets l') = some 1 := by
      intro l'
      simp only [sqOffsets]
      split <;> rfl
    have h2 : ∀ l', depth 1 (cqOffsets l') = some 1 := by
      intro l'
      simp only [cqOffsets]
      split <;> rfl
    have h3 : depth 1 (setupExit c) = some 0 := by
      unfold setupExit
      cases fetch c c.after c.failed (c.arg 1) 120 with
      | none => rfl
      | some l' =>
        simp only [depth_append, h1, h2, depth, Option.bind_some]
    simp only [Bool.false_eq_true, if_false]
    rw [depth_append]
    split <;> split <;> exact h3

/-- What is shown when the call begins does not depend on what comes after, and what is shown when it ends not on what was
before. -/
theorem setup_phases (c : Call) (m : Mem) (b : Bool) :
    setupEnter { c with after := m, failed := b } = setupEnter c ∧ setupExit { c with before := m } = setupExit c :=
  ⟨rfl, rfl⟩

/-- The arguments of io_uring_enter; a set of signals is shown by its bytes exactly if it has the length of one and can be
read. -/
theorem enter_shown {c : Call} (hv : c.verbose = true) :
    ∃ fd t, IsInt (c.arg 0) fd
      ∧ enter c = [.fd fd, .num (c.arg 1 % 2 ^ 32), .num (c.arg 2 % 2 ^ 32), .num (c.arg 3 % 2 ^ 32), t, .num (c.arg 5)]
      ∧ (c.word ≤ c.arg 5 ∧ c.arg 5 ≤ 8 ∧ Readable c.before (c.arg 4) (c.arg 5) → t = .mask (word c.before (c.arg 4) (c.arg 5)))
      ∧ (¬ (c.word ≤ c.arg 5 ∧ c.arg 5 ≤ 8 ∧ Readable c.before (c.arg 4) (c.arg 5)) → t = .addr (c.arg 4)) := by
  refine ⟨_, _, int_is _, rfl, ?_, ?_⟩
  · rintro ⟨h1, h2, h3⟩
    obtain ⟨l, hl⟩ := fetch_readable hv h3
    rw [sigset, if_neg (by omega), hl, word_eq, ← Memc.number_word (fetch_some hl)]
  · intro h
    unfold sigset
    split
    · rfl
    · rename_i h'
      rw [fetch_unreadable fun h3 => h ⟨by omega, by omega, h3⟩]

/-- The two processes and the type come first, whatever the type is. -/
theorem kcmp_first (c : Call) : ∃ p q, IsInt (c.arg 0) p ∧ IsInt (c.arg 1) q
    ∧ (kcmp c).take 3 = [.pid p, .pid q, .num (c.arg 2 % 2 ^ 32)] :=
  ⟨_, _, int_is _, int_is _, rfl⟩

theorem int_small {a t : Nat} (ht : t < 2 ^ 31) : int a = (t : Int) ↔ a % 2 ^ 32 = t := by
  unfold int
  have h2 := Nat.mod_lt a (show 0 < 2 ^ 32 by decide)
  split <;> omega

/-- **Comparing open files** (type 0): each index is a descriptor of the process at the same position. -/
theorem kcmp_file {c : Call} (ht : c.arg 2 % 2 ^ 32 = 0) {p q x y : Int} (hp : IsInt (c.arg 0) p) (hq : IsInt (c.arg 1) q)
    (hx : IsInt (c.arg 3) x) (hy : IsInt (c.arg 4) y) : (kcmp c).drop 3 = [.fdOf p x, .fdOf q y] := by
  rw [int_unique hp (int_is _), int_unique hq (int_is _), int_unique hx (int_is _), int_unique hy (int_is _)]
  show kcmpRest c = _
  have h0 : int (c.arg 2) = 0 := (int_small (t := 0) (by decide)).2 ht
  rw [kcmpRest, if_pos h0]

/-- **Comparing with a slot of an epoll instance** (type 7): both descriptors in the slot are those of the second process. -/
theorem kcmp_epoll {c : Call} (hv : c.verbose = true) (ht : c.arg 2 % 2 ^ 32 = 7) (hr : Readable c.before (c.arg 4) 12)
    {p q x e f : Int} (hp : IsInt (c.arg 0) p) (hq : IsInt (c.arg 1) q) (hx : IsInt (c.arg 3) x)
    (he : IsInt (word c.before (c.arg 4) 4) e) (hf : IsInt (word c.before (c.arg 4 + 4) 4) f) :
    (kcmp c).drop 3 = [.fdOf p x, .opened, .fdOf q e, .fdOf q f, .num (word c.before (c.arg 4 + 8) 4), .closed] := by
  obtain ⟨l, hl⟩ := fetch_readable hv hr
  have hu := fetch_some hl
  have e1 : u32 l 0 = word c.before (c.arg 4) 4 := part hu (o := 0) (by omega)
  have e2 : u32 l 4 = word c.before (c.arg 4 + 4) 4 := part hu (by omega)
  have e3 : u32 l 8 = word c.before (c.arg 4 + 8) 4 := part hu (by omega)
  rw [int_unique hp (int_is _), int_unique hq (int_is _), int_unique hx (int_is _), int_unique he (int_is _),
    int_unique hf (int_is _)]
  show kcmpRest c = _
  have h7 : int (c.arg 2) = 7 := (int_small (t := 7) (by decide)).2 ht
  rw [kcmpRest, if_neg (by rw [h7]; decide), if_pos h7, hl]
  simp only [e1, e2, e3]

/-- A slot that cannot be read is shown by its address. -/
theorem kcmp_unreadable {c : Call} (ht : c.arg 2 % 2 ^ 32 = 7) (hr : ¬ Readable c.before (c.arg 4) 12)
    {p x : Int} (hp : IsInt (c.arg 0) p) (hx : IsInt (c.arg 3) x) : (kcmp c).drop 3 = [.fdOf p x, .addr (c.arg 4)] := by
  rw [int_unique hp (int_is _), int_unique hx (int_is _)]
  show kcmpRest c = _
  have h7 : int (c.arg 2) = 7 := (int_small (t := 7) (by decide)).2 ht
  rw [kcmpRest, if_neg (by rw [h7]; decide), if_pos h7, fetch_unreadable hr]

/-- The types from 1 to 6 have no further arguments; those that are not known show both as they are. -/
theorem kcmp_other {c : Call} : (1 ≤ c.arg 2 % 2 ^ 32 ∧ c.arg 2 % 2 ^ 32 ≤ 6 → (kcmp c).drop 3 = [])
    ∧ (8 ≤ c.arg 2 % 2 ^ 32 → (kcmp c).drop 3 = [.num (c.arg 3), .num (c.arg 4)]) := by
  have h2 := Nat.mod_lt (c.arg 2) (show 0 < 2 ^ 32 by decide)
  constructor
  · intro h
    show kcmpRest c = _
    have hi : int (c.arg 2) = ((c.arg 2 % 2 ^ 32 : Nat) : Int) := (int_small (by omega)).2 rfl
    rw [kcmpRest, if_neg (by omega), if_neg (by omega), if_pos]
    simp only [List.mem_cons, List.not_mem_nil, or_false]
    omega
  · intro h
    show kcmpRest c = _
    have hn : ∀ t : Nat, t < 8 → int (c.arg 2) ≠ (t : Int) := by
      intro t ht h'
      have := (int_small (a := c.arg 2) (t := t) (by omega)).1 h'
      omega
    have h0 : ¬ int (c.arg 2) = 0 := hn 0 (by decide)
    have h7 : ¬ int (c.arg 2) = 7 := hn 7 (by decide)
    rw [kcmpRest, if_neg h0, if_neg h7, if_neg]
    simp only [List.mem_cons, List.not_mem_nil, or_false]
    rintro (h' | h' | h' | h' | h' | h')
    · exact hn 1 (by decide) h'
    · exact hn 2 (by decide) h'
    · exact hn 3 (by decide) h'
    · exact hn 4 (by decide) h'
    · exact hn 5 (by decide) h'
    · exact hn 6 (by decide) h'

/-! ## What is not shown -/

/-- Parameters at address 4096 that are zero but for the flags and the number of completions. -/
def params (fl cq : Nat) : Mem := fun a => some (if a = 4096 + 8 then fl else if a = 4096 + 4 then cq else 0)

def ask (cq : Nat) (failed : Bool) : Call where
  arg i := if i = 0 then 8 else 4096
  before := params 8 cq
  after := params 8 16
  failed := failed
  verbose := true
  word := 8

/-- **A program that asks for a number of completions (flag 8, `IORING_SETUP_CQSIZE`) is not shown to have asked for it**: two
calls that ask for different numbers, both of which fail, are shown the same. -/
theorem completions_hidden : ∃ c d : Call, c.verbose = true ∧ d.verbose = true
    ∧ Readable c.before (c.arg 1) 120 ∧ Readable d.before (d.arg 1) 120
    ∧ (value c.before (c.arg 1) .flags).testBit 3 = true ∧ (value d.before (d.arg 1) .flags).testBit 3 = true
    ∧ value c.before (c.arg 1) .cqEntries ≠ value d.before (d.arg 1) .cqEntries
    ∧ c.failed = true ∧ d.failed = true ∧ setup c = setup d :=
  ⟨ask 1 true, ask 5 true, rfl, rfl, ⟨by decide, fun _ _ => rfl⟩, ⟨by decide, fun _ _ => rfl⟩, by decide, by decide,
   by decide, rfl, rfl, by decide +kernel⟩

/-! ## Concrete cases -/

example : Readable (ask 1 false).before 4096 120 := ⟨by decide, fun _ _ => rfl⟩
example : Given (ask 1 false).before 4096 .flags ∧ ¬ Given (ask 1 false).before 4096 .cqEntries := by
  refine ⟨.inl rfl, ?_⟩
  simp [Given]
example : (setup (ask 1 false)).take 5 =
    [.num 8, .opened, .fld .flags 8, .fld .sqThreadCpu 0, .fld .sqThreadIdle 0] := by decide +kernel
example : .fld .cqEntries 16 ∈ setup (ask 1 false) := by decide +kernel
example : .fd (-1) ∈ (setupEnter { ask 1 false with before := fun a => some (if a = 4104 then 32 else 255) }).1 := by decide +kernel
example : kcmp { ask 1 false with arg := fun i => if i = 2 then 7 else 4096 } =
    [.pid 4096, .pid 4096, .num 7, .fdOf 4096 4096, .opened, .fdOf 4096 0, .fdOf 4096 1, .num 8, .closed] := by decide +kernel
example : enter { ask 1 false with arg := fun i => if i = 5 then 8 else 4096 } =
    [.fd 4096, .num 4096, .num 4096, .num 4096, .mask (2 ^ 32), .num 8] := by decide +kernel

end Strace.Ring
