import Verif.Walk.Model
/-!
# C34: ancillary data
-/
namespace Strace.Walk

/-! ### Specification -/

/-- the message lies inside of the first `len` bytes -/
def CMsg.inside (hsize len : Nat) (m : CMsg) : Prop :=
  m.dataOff = m.off + hsize ∧ m.dataOff + m.dataLen ≤ len

/-- `b` begins where `a` ends, or later -/
def CMsg.before (a b : CMsg) : Prop := a.dataOff + a.dataLen ≤ b.off

/-- the least multiple of `w` not less than `n` -/
def upTo (w n : Nat) : Nat := w * ((n + w - 1) / w)

/-- messages with the given `cmsg_len` follow each other from offset `o` on, each at a multiple of the word size from the
first -/
def CLayout (w : Nat) (get : Nat → Nat) : Nat → List Nat → Prop
  | _, [] => True
  | o, n :: ns => get o = n ∧ CLayout w get (o + upTo w n) ns

/-- the number of bytes from the beginning of the first to the end of the last -/
def ctotal (w : Nat) : List Nat → Nat
  | [] => 0
  | [n] => n
  | n :: m :: ns => upTo w n + ctotal w (m :: ns)

def cmsgs (w hsize : Nat) : Nat → List Nat → List CMsg
  | _, [] => []
  | o, n :: ns => ⟨o, o + hsize, n - hsize⟩ :: cmsgs w hsize (o + upTo w n) ns

/-! ### The walk -/

theorem cmsgAlign_eq (w n : Nat) (hw : w = 4 ∨ w = 8) (hn : n + w ≤ 2 ^ 64) : cmsgAlign w n = upTo w n := by
  unfold cmsgAlign upTo
  rw [Nat.mod_eq_of_lt (by omega), Nat.mul_comm]

theorem le_upTo (w n : Nat) (hw : w = 4 ∨ w = 8) : n ≤ upTo w n := by
  unfold upTo
  rcases hw with h | h <;> subst h <;> omega

theorem cmsg_walk_from (w hsize : Nat) (get : Nat → Nat) (hw : w = 4 ∨ w = 8) (hh : 0 < hsize)
    (hget : ∀ o, get o + w ≤ 2 ^ 64) : ∀ fuel off left, left < fuel →
    ∃ ms l, cmsgLoop w hsize get fuel off left = some (ms, l) ∧ l ≤ left ∧
      (∀ m ∈ ms, off ≤ m.off ∧ m.inside hsize (off + left)) ∧ ms.Pairwise CMsg.before ∧
      ∀ m ∈ ms, m.dataOff + m.dataLen ≤ off + left - l := by
  intro fuel
  induction fuel with
  | zero => intro _ left h; exact absurd h (by omega)
  | succ fuel ih =>
    intro off left hl
    unfold cmsgLoop
    by_cases h1 : left ≥ hsize
    · rw [if_pos h1]
      by_cases h2 : min (get off) left < hsize
      · rw [if_pos h2]
        refine ⟨_, _, rfl, by omega, ?_, by simp, ?_⟩
        · intro m hm
          rw [List.mem_singleton] at hm
          subst hm
          exact ⟨Nat.le_refl _, rfl, by dsimp only; omega⟩
        · intro m hm
          rw [List.mem_singleton] at hm
          subst hm
          dsimp only
          omega
      rw [if_neg h2]
      have hal := cmsgAlign_eq w (get off) hw (hget off)
      have hup := le_upTo w (get off) hw
      rw [← hal] at hup
      by_cases h3 : cmsgAlign w (get off) ≥ left
      · rw [if_pos h3]
        refine ⟨_, _, rfl, by omega, ?_, by simp, ?_⟩
        · intro m hm
          rw [List.mem_singleton] at hm
          subst hm
          exact ⟨Nat.le_refl _, rfl, by dsimp only; omega⟩
        · intro m hm
          rw [List.mem_singleton] at hm
          subst hm
          dsimp only
          omega
      rw [if_neg h3]
      obtain ⟨ms, l, e, hle, hin, hpw, hend⟩ := ih (off + cmsgAlign w (get off)) (left - cmsgAlign w (get off)) (by omega)
      rw [e]
      refine ⟨_, _, rfl, by dsimp only; omega, ?_, ?_, ?_⟩
      · intro m hm
        rcases List.mem_cons.mp hm with hm | hm
        · subst hm
          exact ⟨Nat.le_refl _, rfl, by dsimp only; omega⟩
        · obtain ⟨g1, g2, g3⟩ := hin m hm
          exact ⟨by omega, g2, by omega⟩
      · refine List.pairwise_cons.mpr ⟨?_, hpw⟩
        intro m hm
        have := (hin m hm).1
        unfold CMsg.before
        dsimp only
        omega
      · intro m hm
        rcases List.mem_cons.mp hm with hm | hm
        · subst hm
          dsimp only
          omega
        · have := hend m hm
          dsimp only
          omega
    · rw [if_neg h1]
      exact ⟨_, _, rfl, Nat.le_refl _, by simp, by simp, by simp⟩

theorem cmsgLoop_more (w hsize : Nat) (get : Nat → Nat) : ∀ fuel off left r,
    cmsgLoop w hsize get fuel off left = some r → cmsgLoop w hsize get (fuel + 1) off left = some r := by
  intro fuel
  induction fuel with
  | zero => intro _ _ _ h; simp [cmsgLoop] at h
  | succ fuel ih =>
    intro off left r h
    unfold cmsgLoop at h ⊢
    by_cases h1 : left ≥ hsize
    · rw [if_pos h1] at h ⊢
      by_cases h2 : min (get off) left < hsize
      · rw [if_pos h2] at h ⊢; exact h
      rw [if_neg h2] at h ⊢
      by_cases h3 : cmsgAlign w (get off) ≥ left
      · rw [if_pos h3] at h ⊢; exact h
      rw [if_neg h3] at h ⊢
      cases hr : cmsgLoop w hsize get fuel (off + cmsgAlign w (get off)) (left - cmsgAlign w (get off)) with
      | none => rw [hr] at h; simp at h
      | some t =>
        rw [hr] at h
        rw [ih _ _ _ hr]
        exact h
    · rw [if_neg h1] at h ⊢; exact h

theorem cmsgLoop_any (w hsize : Nat) (get : Nat → Nat) (fuel fuel' off left : Nat) (r : List CMsg × Nat)
    (h : cmsgLoop w hsize get fuel off left = some r) (hle : fuel ≤ fuel') :
    cmsgLoop w hsize get fuel' off left = some r := by
  obtain ⟨d, rfl⟩ := Nat.exists_eq_add_of_le hle
  clear hle
  induction d with
  | zero => exact h
  | succ d ih => exact cmsgLoop_more _ _ _ _ _ _ _ ih

/-- the bytes to look at are what is left out of: the rest begins after all messages shown -/
def endOk (ms : List CMsg) (len given : Nat) : CEnd → Prop
  | .rest off => off < len ∧ ∀ m ∈ ms, m.dataOff + m.dataLen ≤ off
  | .cut => len < given
  | .nothing => len = given

/-- C34: decoding ancillary data ends, and all messages shown lie inside of the buffer, one after the other; the end of the
list says whether something is left out; provided that no `cmsg_len` is so near to 2^64 that rounding it wraps around -/
theorem control_walk_partial (w hsize opt given : Nat) (get : Nat → Nat) (hw : w = 4 ∨ w = 8) (hh : 0 < hsize)
    (hget : ∀ o, get o + w ≤ 2 ^ 64) :
    ∃ ms e, (∀ fuel, min given opt < fuel → decodeControl w hsize opt get fuel given = some (ms, e)) ∧
      (∀ m ∈ ms, m.inside hsize (min given opt)) ∧ ms.Pairwise CMsg.before ∧ endOk ms (min given opt) given e := by
  obtain ⟨ms, l, e, hle, hin, hpw, hend⟩ := cmsg_walk_from w hsize get hw hh hget (min given opt + 1) 0 (min given opt)
    (by omega)
  refine ⟨ms, if l ≠ 0 then .rest (min given opt - l) else if min given opt < given then .cut else .nothing, ?_, ?_, hpw, ?_⟩
  · intro fuel hf
    unfold decodeControl
    rw [cmsgLoop_any w hsize get _ fuel 0 _ _ e hf]
    rfl
  · intro m hm
    have := (hin m hm).2
    rw [Nat.zero_add] at this
    exact this
  · by_cases hl : l ≠ 0
    · rw [if_pos hl]
      refine ⟨by omega, ?_⟩
      intro m hm
      have := hend m hm
      omega
    · rw [if_neg hl]
      by_cases hc : min given opt < given
      · rw [if_pos hc]; exact hc
      · rw [if_neg hc]; show min given opt = given; omega

/-- C34: for tracees with 32-bit words this is so whatever is in the buffer -/
theorem control32_walk (opt given : Nat) (get : Nat → Nat) (hget : ∀ o, get o < 2 ^ 32) :
    ∃ ms e, (∀ fuel, min given opt < fuel → decodeControl 4 12 opt get fuel given = some (ms, e)) ∧
      (∀ m ∈ ms, m.inside 12 (min given opt)) ∧ ms.Pairwise CMsg.before ∧ endOk ms (min given opt) given e :=
  control_walk_partial 4 12 opt given get (Or.inl rfl) (by decide) (fun o => by have := hget o; omega)

/-- C34 (finding): a `cmsg_len` of 2^64-7 or more is rounded to 0, and decoding never ends -/
theorem control_endless (opt given : Nat) (get : Nat → Nat) (hget : get 0 ≤ 2 ^ 64 - 1) (hbig : 2 ^ 64 - 7 ≤ get 0)
    (hlen : 16 ≤ min given opt) (hsmall : min given opt < 2 ^ 32) : ∀ fuel, decodeControl 8 16 opt get fuel given = none := by
  have key : ∀ fuel, cmsgLoop 8 16 get fuel 0 (min given opt) = none := by
    intro fuel
    induction fuel with
    | zero => rfl
    | succ fuel ih =>
      have h0 : cmsgAlign 8 (get 0) = 0 := by unfold cmsgAlign; omega
      unfold cmsgLoop
      rw [if_pos hlen, if_neg (by omega), if_neg (by omega), h0, Nat.add_zero, Nat.sub_zero, ih]
      rfl
  intro fuel
  unfold decodeControl
  rw [key]
  rfl

/-- such a buffer: 16 bytes of a header, and nothing else -/
example : decodeControl 8 16 20480 (fun _ => 2 ^ 64 - 1) 1000 16 = none :=
  control_endless _ _ _ (by decide) (by decide) (by decide) (by decide) _

/-! ### Well-formed buffers are shown in full -/

theorem clayout_loop (w hsize : Nat) (get : Nat → Nat) (hw : w = 4 ∨ w = 8) (hh : 0 < hsize) (pad : Nat) :
    ∀ (ns : List Nat) (o : Nat), ns ≠ [] → (∀ n ∈ ns, hsize ≤ n ∧ n + w ≤ 2 ^ 64) → CLayout w get o ns →
      (∀ n, ns.getLast? = some n → n + pad ≤ upTo w n) →
      cmsgLoop w hsize get (ctotal w ns + pad + 1) o (ctotal w ns + pad) = some (cmsgs w hsize o ns, 0) := by
  intro ns
  induction ns with
  | nil => intro _ h; exact absurd rfl h
  | cons n ns ih =>
    intro o _ hall hlay hlast
    obtain ⟨hn1, hn2⟩ := hall n List.mem_cons_self
    obtain ⟨hg, hlay'⟩ := hlay
    have hup := le_upTo w n hw
    have hal := cmsgAlign_eq w n hw hn2
    have htot : n ≤ ctotal w (n :: ns) := by
      cases ns with
      | nil => exact Nat.le_refl _
      | cons m ns => simp only [ctotal]; omega
    unfold cmsgLoop
    rw [if_pos (by omega), hg]
    have hmin : min n (ctotal w (n :: ns) + pad) = n := by omega
    rw [hmin, if_neg (by omega), hal]
    cases hns : ns with
    | nil =>
      subst hns
      have := hlast n rfl
      rw [if_pos (by simp only [ctotal]; omega)]
      rfl
    | cons k ns' =>
      have htot2 : ctotal w (n :: ns) = upTo w n + ctotal w ns := by rw [hns]; rfl
      have hk : 0 < ctotal w ns := by
        have hkm := hall k (by rw [hns]; simp)
        have := le_upTo w k hw
        rw [hns]
        cases ns' with
        | nil => simp only [ctotal]; omega
        | cons j ns'' => simp only [ctotal]; omega
      rw [← hns, if_neg (by omega)]
      have hne : ns ≠ [] := by rw [hns]; simp
      have ih' := ih (o + upTo w n) hne (fun x hx => hall x (List.mem_cons_of_mem _ hx)) hlay'
        (fun x hx => hlast x (by rw [hns] at hx ⊢; simpa using hx))
      have e : ctotal w (n :: ns) + pad - upTo w n = ctotal w ns + pad := by omega
      rw [e, cmsgLoop_any w hsize get _ (ctotal w (n :: ns) + pad) _ _ _ ih' (by omega)]
      rfl

/-- C34: a buffer of whole messages is shown as exactly these, with all of their data -/
theorem control_all (w hsize opt : Nat) (get : Nat → Nat) (hw : w = 4 ∨ w = 8) (hh : 0 < hsize) (pad : Nat)
    (ns : List Nat) (hne : ns ≠ []) (hall : ∀ n ∈ ns, hsize ≤ n ∧ n + w ≤ 2 ^ 64) (hlay : CLayout w get 0 ns)
    (hlast : ∀ n, ns.getLast? = some n → n + pad ≤ upTo w n) (hopt : ctotal w ns + pad ≤ opt) :
    decodeControl w hsize opt get (ctotal w ns + pad + 1) (ctotal w ns + pad) =
      some (cmsgs w hsize 0 ns, .nothing) := by
  unfold decodeControl
  rw [Nat.min_eq_left hopt, clayout_loop w hsize get hw hh pad ns 0 hne hall hlay hlast]
  simp

/-- two messages, the first of which needs padding -/
example : CLayout 8 (fun o => if o = 0 then 20 else 24) 0 [20, 24] ∧ ctotal 8 [20, 24] = 48 ∧
    decodeControl 8 16 20480 (fun o => if o = 0 then 20 else 24) 49 48 = some ([⟨0, 16, 4⟩, ⟨24, 40, 8⟩], .nothing) ∧
    decodeControl 8 16 30 (fun o => if o = 0 then 20 else 24) 49 48 = some ([⟨0, 16, 4⟩], .rest 24) := by
  refine ⟨by simp [CLayout, upTo], by decide, by decide, by decide⟩

end Strace.Walk
