import Verif.Quote.Props
/-!
# C119: values whose final NUL is left out

Values of extended attributes (xattr.c:31), descriptions of keys (keyctl.c:119-120) and strings of netlink attributes
(nlattr.c:172-173) are printed with QUOTE_OMIT_TRAILING_0: a NUL at the end is not shown, since such values usually
end with one.  The model is that of `printstr_ex` and `string_quote` in `Quote.Model`.
-/
namespace Strace.Quote

/-- The style of xattr.c:31 and keyctl.c:119-120 (`expect = false`) and of nlattr.c:172-173 (`expect = true`). -/
def trailStyle (expect : Bool) (x : XStyle) : Style := ⟨false, false, true, expect, false, x⟩

/-- The value in memory. -/
def value (mem : Nat → Nat) (len : Nat) : List Nat := (List.range len).map mem

theorem trail_size (maxStrlen len : Nat) (e : Bool) (x : XStyle) :
    printstrSize maxStrlen len (trailStyle e x) = min len maxStrlen := by
  show (if (if maxStrlen + 1 > len then len else maxStrlen + 1) > maxStrlen then maxStrlen
      else if maxStrlen + 1 > len then len else maxStrlen + 1) = _
  repeat' split
  all_goals omega

theorem trail_buf (maxStrlen len : Nat) (mem : Nat → Nat) (old : List Nat) (e : Bool) (x : XStyle) :
    (printstrBuf maxStrlen mem len (trailStyle e x) old).take (min len maxStrlen) = value mem (min len maxStrlen) := by
  unfold printstrBuf value
  dsimp only
  have ht : (trailStyle e x).term = false := rfl
  rw [ht]
  simp only [Bool.false_eq_true, if_false]
  by_cases hc : maxStrlen + 1 > len
  · rw [if_pos hc, if_neg (by omega), List.take_set_of_le (by omega),
      List.take_append_of_le_length (by simp; omega), show min len maxStrlen = len by omega]
    rw [List.take_of_length_le (by simp)]
  · rw [if_neg hc, if_pos (by omega), List.take_append_of_le_length (by simp; omega), ← List.map_take,
      List.take_range]
    congr 2; omega

/-- The last byte of a list is NUL. -/
def endsNul (bs : List Nat) : Bool := bs.getLast? == some 0

theorem trail_shown (e : Bool) (x : XStyle) (hex : Bool) : ∀ bs : List Nat,
    shown (trailStyle e x) hex bs = if hex = false ∧ endsNul bs = true then bs.dropLast else bs
  | [] => by simp [shown]
  | [c] => by
    cases hex <;> by_cases h : c = 0 <;> simp [shown, trailStyle, endsNul, h]
  | c :: d :: t => by
    have ih := trail_shown e x hex (d :: t)
    have e1 : shown (trailStyle e x) hex (c :: d :: t) = c :: shown (trailStyle e x) hex (d :: t) := by
      rw [shown]; simp [trailStyle]
    rw [e1, ih]
    have e2 : endsNul (c :: d :: t) = endsNul (d :: t) := by simp [endsNul, List.getLast?_cons_cons]
    rw [e2]
    by_cases h : hex = false ∧ endsNul (d :: t) = true
    · rw [if_pos h, if_pos h]; rfl
    · rw [if_neg h, if_neg h]

theorem trail_plain (e : Bool) (x : XStyle) : ∀ bs : List Nat, (plainLoop (trailStyle e x) [] bs).2 = endsNul bs
  | [] => rfl
  | [c] => by
    by_cases h : c = 0 <;> simp [plainLoop, trailStyle, endsNul, h]
  | c :: d :: t => by
    have ih := trail_plain e x (d :: t)
    have e2 : endsNul (c :: d :: t) = endsNul (d :: t) := by simp [endsNul, List.getLast?_cons_cons]
    rw [e2, ← ih]
    rw [plainLoop]; simp [trailStyle]

theorem trail_hex (e : Bool) (x : XStyle) : ∀ bs : List Nat, (hexLoop (trailStyle e x) bs).2 = false
  | [] => rfl
  | c :: t => by
    have ih := trail_hex e x t
    rw [hexLoop]
    simp only [trailStyle, Bool.false_and, Bool.false_eq_true, if_false] at ih ⊢
    exact ih

theorem trail_rc (e : Bool) (x : XStyle) (bs : List Nat) (peek : Nat) :
    (stringQuote bs peek (trailStyle e x) []).2 =
      if useHex (trailStyle e x) bs = false ∧ endsNul bs = true then 0 else 1 := by
  unfold stringQuote
  dsimp only
  cases hu : useHex (trailStyle e x) bs with
  | true =>
    simp only [if_true, trail_hex, Bool.false_eq_true, if_false]
    simp [trailStyle]
  | false =>
    simp only [Bool.false_eq_true, if_false, trail_plain]
    cases endsNul bs <;> simp [trailStyle]

/-- **What is shown of a value**: of its first bytes, as many as the limit allows, all, or all but a NUL at their end
(which `-x` and `-xx` show); and an ellipsis unless such a NUL has been seen, if the value is longer than the limit, or
in any case for a string of netlink. -/
theorem trail_text (maxStrlen len : Nat) (mem : Nat → Nat) (old : List Nat) (e : Bool) (x : XStyle) (greedy : Bool)
    (hx : x = .nonAsciiChars → greedy = false) (hm : ∀ i, mem i < 256) :
    let B := value mem (min len maxStrlen)
    let hex := useHex (trailStyle e x) B
    let o := printstrEx maxStrlen mem len (trailStyle e x) old
    decodeLit greedy o.text = some (if hex = false ∧ endsNul B = true then B.dropLast else B, [])
    ∧ (o.ellipsis = true ↔ ¬ (hex = false ∧ endsNul B = true) ∧ 0 < len ∧ (e = true ∨ maxStrlen < len)) := by
  intro B hex o
  have ho : o = printstrEx maxStrlen mem len (trailStyle e x) old := rfl
  unfold printstrEx at ho
  rw [trail_size] at ho
  dsimp only at ho
  rw [trail_buf] at ho
  rw [ho]
  dsimp only
  constructor
  · rw [quote_roundtrip greedy _ _ (trailStyle e x) [] (by
      intro c hc; simp [value] at hc; obtain ⟨i, _, rfl⟩ := hc; exact hm i)
      rfl rfl (by intro h1 h2; have := hx h1; rw [this] at h2; cases h2)]
    rw [trail_shown]
  · rw [trail_rc]
    show _ ↔ ¬ (useHex (trailStyle e x) (value mem (min len maxStrlen)) = false ∧ endsNul (value mem (min len maxStrlen)) = true) ∧ _
    by_cases h : useHex (trailStyle e x) (value mem (min len maxStrlen)) = false ∧ endsNul (value mem (min len maxStrlen)) = true
    · rw [if_pos h]
      simp [h]
    · rw [if_neg h]
      simp only [h, not_false_iff, true_and]
      have ht : (trailStyle e x).term = false := rfl
      have he : (trailStyle e x).expect0 = e := rfl
      rw [ht, he]
      cases e <;> simp <;> omega

/-- A text that denotes `d` tells the value `v`: all of it, or all but a NUL at its end. -/
def Tells (d v : List Nat) : Prop := v = d ∨ v = d ++ [0]

theorem value_length (mem : Nat → Nat) (n : Nat) : (value mem n).length = n := by simp [value]

theorem endsNul_value (mem : Nat → Nat) (n : Nat) : endsNul (value mem n) = true ↔ 0 < n ∧ mem (n - 1) = 0 := by
  cases n with
  | zero => simp [endsNul, value]
  | succ n => simp [endsNul, value, List.range_succ]

theorem dropLast_value (mem : Nat → Nat) (n : Nat) : (value mem n).dropLast = value mem (n - 1) := by
  cases n with
  | zero => simp [value]
  | succ n => simp [value, List.range_succ]

theorem value_succ (mem : Nat → Nat) (n : Nat) : value mem (n + 1) = value mem n ++ [mem n] := by
  simp [value, List.range_succ]

/-- **A value shown without an ellipsis is complete, unless** it is longer than the limit, its last byte within the limit
is NUL, and it is not shown in hexadecimal. -/
theorem trail_complete_iff (maxStrlen len : Nat) (mem : Nat → Nat) (old : List Nat) (e : Bool) (x : XStyle) (greedy : Bool)
    (hx : x = .nonAsciiChars → greedy = false) (hm : ∀ i, mem i < 256) :
    (∀ d, decodeLit greedy (printstrEx maxStrlen mem len (trailStyle e x) old).text = some (d, []) →
      (printstrEx maxStrlen mem len (trailStyle e x) old).ellipsis = false → Tells d (value mem len)) ↔
    ¬ (maxStrlen < len ∧ 0 < maxStrlen ∧ mem (maxStrlen - 1) = 0 ∧ useHex (trailStyle e x) (value mem maxStrlen) = false) := by
  obtain ⟨ht, he⟩ := trail_text maxStrlen len mem old e x greedy hx hm
  constructor
  · rintro h ⟨h1, h2, h3, h4⟩
    rw [show min len maxStrlen = maxStrlen by omega] at ht he
    have hn : endsNul (value mem maxStrlen) = true := (endsNul_value _ _).2 ⟨h2, h3⟩
    rw [if_pos ⟨h4, hn⟩] at ht
    have hf : (printstrEx maxStrlen mem len (trailStyle e x) old).ellipsis = false := by
      rw [Bool.eq_false_iff]
      intro hh
      exact (he.1 hh).1 ⟨h4, hn⟩
    have := h _ ht hf
    rw [dropLast_value] at this
    rcases this with h | h
    · have := congrArg List.length h
      simp [value_length] at this; omega
    · have := congrArg List.length h
      simp [value_length] at this; omega
  · intro hno d hd hf
    rw [ht] at hd
    have hd' : (if useHex (trailStyle e x) (value mem (min len maxStrlen)) = false ∧ endsNul (value mem (min len maxStrlen)) = true
      then (value mem (min len maxStrlen)).dropLast else value mem (min len maxStrlen)) = d := by
      injection hd with hd; exact (Prod.mk.inj hd).1
    by_cases hl : len ≤ maxStrlen
    · rw [show min len maxStrlen = len by omega] at hd'
      by_cases hc : useHex (trailStyle e x) (value mem len) = false ∧ endsNul (value mem len) = true
      · rw [if_pos hc] at hd'
        right
        obtain ⟨p, q⟩ := (endsNul_value _ _).1 hc.2
        obtain ⟨k, rfl⟩ : ∃ k, len = k + 1 := ⟨len - 1, by omega⟩
        rw [← hd', dropLast_value, value_succ]
        simp at q
        simp [q]
      · rw [if_neg hc] at hd'
        exact Or.inl hd'
    · rw [show min len maxStrlen = maxStrlen by omega] at hd' he
      exfalso
      have hnn : ¬ (useHex (trailStyle e x) (value mem maxStrlen) = false ∧ endsNul (value mem maxStrlen) = true) := by
        rintro ⟨p, q⟩
        obtain ⟨q1, q2⟩ := (endsNul_value _ _).1 q
        exact hno ⟨by omega, q1, q2, p⟩
      have := he.2 ⟨hnn, by omega, Or.inr (by omega)⟩
      rw [hf] at this; cases this

/-- In hexadecimal (`-xx`) a value shown without an ellipsis is always complete. -/
theorem trail_complete_hex_partial (maxStrlen len : Nat) (mem : Nat → Nat) (old : List Nat) (e : Bool) (greedy : Bool)
    (hm : ∀ i, mem i < 256) (d : List Nat)
    (hd : decodeLit greedy (printstrEx maxStrlen mem len (trailStyle e .all) old).text = some (d, []))
    (hf : (printstrEx maxStrlen mem len (trailStyle e .all) old).ellipsis = false) : Tells d (value mem len) := by
  refine (trail_complete_iff maxStrlen len mem old e .all greedy (by intro h; cases h) hm).2 ?_ d hd hf
  rintro ⟨_, _, _, h⟩
  simp [useHex, trailStyle] at h

/-- A value not longer than the limit is always complete, with or without an ellipsis. -/
theorem trail_complete_short_partial (maxStrlen len : Nat) (mem : Nat → Nat) (old : List Nat) (e : Bool) (x : XStyle)
    (greedy : Bool) (hx : x = .nonAsciiChars → greedy = false) (hm : ∀ i, mem i < 256) (hl : len ≤ maxStrlen) :
    ∃ d, decodeLit greedy (printstrEx maxStrlen mem len (trailStyle e x) old).text = some (d, []) ∧ Tells d (value mem len) := by
  obtain ⟨ht, -⟩ := trail_text maxStrlen len mem old e x greedy hx hm
  rw [show min len maxStrlen = len by omega] at ht
  refine ⟨_, ht, ?_⟩
  by_cases hc : useHex (trailStyle e x) (value mem len) = false ∧ endsNul (value mem len) = true
  · rw [if_pos hc]
    right
    obtain ⟨p, q⟩ := (endsNul_value _ _).1 hc.2
    obtain ⟨k, rfl⟩ : ∃ k, len = k + 1 := ⟨len - 1, by omega⟩
    rw [dropLast_value, value_succ]
    simp at q
    simp [q]
  · rw [if_neg hc]
    exact Or.inl rfl

/-- "aaa", NUL, "secret". -/
def secretValue (i : Nat) : Nat := [97, 97, 97, 0, 115, 101, 99, 114, 101, 116].getD i 0

/-- **The claim is false of the code**: with a limit of four, the value "aaa\\0secret" of ten bytes is shown as "aaa" and
nothing follows, just as a value of three or four bytes is. -/
theorem trail_counterexample :
    printstrEx 4 secretValue 10 (trailStyle false .none) [] = ⟨[34, 97, 97, 97, 34], false⟩
    ∧ printstrEx 4 secretValue 4 (trailStyle false .none) [] = ⟨[34, 97, 97, 97, 34], false⟩
    ∧ printstrEx 4 secretValue 3 (trailStyle false .none) [] = ⟨[34, 97, 97, 97, 34], false⟩
    ∧ printstrEx 4 secretValue 10 (trailStyle true .none) [] = ⟨[34, 97, 97, 97, 34], false⟩
    ∧ printstrEx 5 secretValue 10 (trailStyle false .none) [] = ⟨[34, 97, 97, 97, 92, 48, 115, 34], true⟩ := by
  decide

example : Tells [97, 97, 97] (value secretValue 4) := by right; decide
example : ∀ i, secretValue i < 256 := by
  intro i
  unfold secretValue
  match i with
  | 0 | 1 | 2 | 3 | 4 | 5 | 6 | 7 | 8 | 9 => decide
  | n + 10 => simp

end Strace.Quote
