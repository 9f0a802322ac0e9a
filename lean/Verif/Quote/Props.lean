import Verif.Quote.Model
import Verif.Quote.Spec
/-
C09: quoted strings decode back to the exact bytes.  C10: buffer bounds.  C11: the ellipsis.
-/
namespace Strace.Quote

/-! ### What is meant to be printed -/

/-- the bytes to be printed: up to the NUL for NUL-terminated strings, without a final NUL when the
style says so -/
def shown (s : Style) (hex : Bool) : List Nat → List Nat
  | [] => []
  | c :: t =>
    if s.term && c == 0 then []
    else if !hex && t.isEmpty && s.omit0 && c == 0 then []
    else c :: shown s hex t

/-! ### Lemmas: one byte -/

/-- the text `u` does not start with an octal / a hex digit -/
def NoOct (u : List Nat) : Prop := ∀ c t, u = c :: t → isOctDigit c = false
def NoHex (u : List Nat) : Prop := ∀ c t, u = c :: t → isHexDigit c = false

theorem octRun_stop (n acc : Nat) (u : List Nat) (h : NoOct u) : octRun n acc u = (acc, u) := by
  cases n with
  | zero => rfl
  | succ n =>
    cases u with
    | nil => rfl
    | cons c t => simp [octRun, h c t rfl]

theorem hexRun_stop (n acc : Nat) (u : List Nat) (h : NoHex u) : hexRun n acc u = (acc, u) := by
  cases n with
  | zero => rfl
  | succ n =>
    cases u with
    | nil => rfl
    | cons c t => simp [hexRun, h c t rfl]

theorem isOct_digit (k : Nat) (h : k < 8) : isOctDigit (48 + k) = true := by
  unfold isOctDigit; simp; omega

theorem octRun_digit (n acc k : Nat) (u : List Nat) (h : k < 8) :
    octRun (n + 1) acc ((48 + k) :: u) = octRun n (acc * 8 + k) u := by
  rw [octRun, isOct_digit k h, if_pos rfl]; congr 1; omega

theorem isHex_hexChar (k : Nat) (h : k < 16) : isHexDigit (hexChar k) = true := by
  unfold isHexDigit hexChar; split <;> simp <;> omega

theorem hexVal_hexChar (k : Nat) (h : k < 16) : hexDigitVal (hexChar k) = k := by
  unfold hexDigitVal hexChar
  repeat' split
  all_goals omega

theorem hexRun_digit (n acc k : Nat) (u : List Nat) (h : k < 16) :
    hexRun (n + 1) acc (hexChar k :: u) = hexRun n (acc * 16 + k) u := by
  rw [hexRun, isHex_hexChar k h, if_pos rfl, hexVal_hexChar k h]

/-- an octal escape reads back -/
theorem escape_oct (g : Bool) (c : Nat) (hc : c < 256) (b : Bool) (u : List Nat)
    (h : b = false → NoOct u) : escape g (byteOct c b ++ u) = some (c, u) := by
  have key : ∀ (k : Nat) (t : List Nat), k < 8 → escape g ((48 + k) :: t) = some (octRun 3 0 ((48 + k) :: t)) := by
    intro k t hk
    have h0 := isOct_digit k hk
    unfold escape
    simp only [h0, if_true]
    rw [if_neg (by omega), if_neg (by omega), if_neg (by omega), if_neg (by omega), if_neg (by omega),
      if_neg (by omega), if_neg (by omega)]
  have three : octRun 3 0 ([48 + c / 64, 48 + c / 8 % 8, 48 + c % 8] ++ u) = (c, u) := by
    simp only [List.cons_append, List.nil_append]
    rw [octRun_digit _ _ _ _ (by omega), octRun_digit _ _ _ _ (by omega), octRun_digit _ _ _ _ (by omega), octRun]
    congr 1; omega
  unfold byteOct
  cases b with
  | true =>
    rw [if_pos rfl]
    show escape g ((48 + c / 64) :: _) = _
    rw [key _ _ (by omega)]; exact congrArg some three
  | false =>
    rw [if_neg (by simp)]
    have hu := h rfl
    split
    · split
      · show escape g ((48 + c / 64) :: _) = _
        rw [key _ _ (by omega)]; exact congrArg some three
      · simp only [List.cons_append, List.nil_append]
        rw [key _ _ (by omega), octRun_digit _ _ _ _ (by omega), octRun_digit _ _ _ _ (by omega),
          octRun_stop _ _ _ hu]
        congr 2; omega
    · simp only [List.cons_append, List.nil_append]
      rw [key _ _ (by omega), octRun_digit _ _ _ _ (by omega), octRun_stop _ _ _ hu]
      congr 2; omega

/-- a hex escape reads back -/
theorem escape_hex (g : Bool) (c : Nat) (hc : c < 256) (u : List Nat) (h : g = true → NoHex u) :
    escape g (120 :: byteHex c ++ u) = some (c, u) := by
  have e : escape g (120 :: byteHex c ++ u) = hexEscape g (byteHex c ++ u) := rfl
  rw [e]
  unfold hexEscape byteHex
  simp only [List.cons_append, List.nil_append]
  have hr : hexRun (if g = true then (hexChar (c / 16) :: hexChar (c % 16) :: u).length else 2) 0
      (hexChar (c / 16) :: hexChar (c % 16) :: u) = (c, u) := by
    cases g with
    | true =>
      simp only [if_true, List.length_cons]
      rw [hexRun_digit _ _ _ _ (by omega), hexRun_digit _ _ _ _ (by omega), hexRun_stop _ _ _ (h rfl)]
      congr 1; omega
    | false =>
      simp only [Bool.false_eq_true, if_false]
      rw [hexRun_digit _ _ _ _ (by omega), hexRun_digit _ _ _ _ (by omega), hexRun]
      congr 1; omega
  rw [hr, if_neg (by simp only [List.length_cons]; omega)]

theorem decode_escape (g : Bool) (e u : List Nat) (c : Nat) (hc : c < 256)
    (h : escape g (e ++ u) = some (c, u)) :
    decodeBody g (92 :: (e ++ u)) = (decodeBody g u).map fun p => (c :: p.1, p.2) := by
  rw [decodeBody, if_neg (by decide), if_pos rfl]
  split
  · rename_i hn; rw [h] at hn; cases hn
  · rename_i v r hs
    rw [h] at hs
    injection hs with hs; injection hs with h1 h2
    subst h1 h2
    rw [if_neg (by omega)]

/-- one byte of the plain loop reads back -/
theorem decode_escOne (g : Bool) (x : XStyle) (esc : List Nat) (c : Nat) (t u : List Nat)
    (hc : c < 256) (hoct : nextIsOct t = false → NoOct u)
    (hhex : escOne x esc c t = 92 :: 120 :: byteHex c → g = true → NoHex u) :
    decodeBody g (escOne x esc c t ++ u) = (decodeBody g u).map fun p => (c :: p.1, p.2) := by
  have simple : ∀ d, escape g (d :: u) = some (c, u) →
      decodeBody g ([92, d] ++ u) = (decodeBody g u).map fun p => (c :: p.1, p.2) := by
    intro d h
    exact decode_escape g [d] u c hc h
  unfold escOne at hhex ⊢
  split
  · rename_i h
    rcases h with h | h <;> subst h <;> exact simple _ rfl
  rename_i hq
  split
  · rename_i h; subst h; exact simple _ rfl
  split
  · rename_i h; subst h; exact simple _ rfl
  split
  · rename_i h; subst h; exact simple _ rfl
  split
  · rename_i h; subst h; exact simple _ rfl
  split
  · rename_i h; subst h; exact simple _ rfl
  split
  · rw [List.cons_append, List.nil_append, decodeBody, if_neg (by omega), if_neg (by omega)]
  split
  · rename_i h1 h2 h3 h4 h5 h6 hx
    rw [if_neg hq, if_neg h1, if_neg h2, if_neg h3, if_neg h4, if_neg h5, if_neg h6, if_pos hx] at hhex
    exact decode_escape g (120 :: byteHex c) u c hc (escape_hex g c hc u (hhex rfl))
  · exact decode_escape g (byteOct c (nextIsOct t)) u c hc (escape_oct g c hc _ u hoct)

/-- the first character of an escape is a backslash or the byte itself -/
theorem escOne_head (x : XStyle) (esc : List Nat) (c : Nat) (t : List Nat) :
    ∃ h r, escOne x esc c t = h :: r ∧ (h = 92 ∨ (h = c ∧ c ≠ 34 ∧ c ≠ 92)) := by
  unfold escOne
  split
  · exact ⟨_, _, rfl, Or.inl rfl⟩
  rename_i hq
  split
  · exact ⟨_, _, rfl, Or.inl rfl⟩
  split
  · exact ⟨_, _, rfl, Or.inl rfl⟩
  split
  · exact ⟨_, _, rfl, Or.inl rfl⟩
  split
  · exact ⟨_, _, rfl, Or.inl rfl⟩
  split
  · exact ⟨_, _, rfl, Or.inl rfl⟩
  split
  · exact ⟨_, _, rfl, Or.inr ⟨rfl, by omega, by omega⟩⟩
  split
  · exact ⟨_, _, rfl, Or.inl rfl⟩
  · exact ⟨_, _, rfl, Or.inl rfl⟩

theorem escOne_hex_style (x : XStyle) (esc : List Nat) (c : Nat) (t : List Nat) (hc : c < 256)
    (h : escOne x esc c t = 92 :: 120 :: byteHex c) : x = .nonAsciiChars := by
  have two : ∀ d, ([92, d] : List Nat) ≠ 92 :: 120 :: byteHex c := by
    intro d h; have := congrArg List.length h; simp [byteHex] at this
  unfold escOne at h
  split at h
  · exact absurd h (two _)
  split at h
  · exact absurd h (two _)
  split at h
  · exact absurd h (two _)
  split at h
  · exact absurd h (two _)
  split at h
  · exact absurd h (two _)
  split at h
  · exact absurd h (two _)
  split at h
  · have := congrArg List.length h; simp [byteHex] at this
  split at h
  · assumption
  · exfalso
    injection h with _ h
    unfold byteOct at h
    split at h
    · injection h with a _; omega
    split at h
    · split at h
      · injection h with a _; omega
      · injection h with a _; omega
    · injection h with a _; omega

theorem plain_noOct (s : Style) (esc t u : List Nat) (hu : NoOct u) (h : nextIsOct t = false) :
    NoOct ((plainLoop s esc t).1 ++ u) := by
  cases t with
  | nil => exact hu
  | cons d t =>
    unfold plainLoop
    split
    · exact hu
    split
    · exact hu
    · obtain ⟨a, r, e, ha⟩ := escOne_head s.x esc d t
      rw [e]
      intro c v hcv
      simp only [List.cons_append] at hcv
      injection hcv with hcv _
      rw [← hcv]
      rcases ha with ha | ha
      · rw [ha]; rfl
      · rw [ha.1]; exact h

/-- Does a byte that is printed as `\xNN` precede, in the printed text, a character that is a hex digit
(so that C would read a longer escape)? -/
def hexFollows (s : Style) (esc : List Nat) : List Nat → Bool
  | [] => false
  | c :: t =>
    (escOne s.x esc c t == 92 :: 120 :: byteHex c &&
      (match (plainLoop s esc t).1 with
       | [] => false
       | d :: _ => isHexDigit d)) || hexFollows s esc t

theorem decode_plain (g : Bool) (s : Style) (esc bs rest : List Nat) (hb : ∀ c ∈ bs, c < 256)
    (hx : s.x = .nonAsciiChars → g = true → hexFollows s esc bs = false) :
    decodeBody g ((plainLoop s esc bs).1 ++ 34 :: rest) = some (shown s false bs, rest) := by
  induction bs with
  | nil => rw [decodeBody.eq_def]; simp [plainLoop, shown]
  | cons c t ih =>
    have hq : decodeBody g (34 :: rest) = some ([], rest) := by
      rw [decodeBody.eq_def]; simp
    unfold plainLoop shown
    split
    · exact hq
    split
    · rename_i h
      have : (!false && t.isEmpty && s.omit0 && c == 0) = true := by simpa using h
      rw [if_pos this]; exact hq
    · rename_i h
      have : ¬ (!false && t.isEmpty && s.omit0 && c == 0) = true := by simpa using h
      rw [if_neg this]
      have hc := hb c (by simp)
      have hnq : NoOct (34 :: rest) := by
        intro a v h; injection h with h _; subst h; rfl
      dsimp only
      rw [List.append_assoc]
      have ih := ih (fun d hd => hb d (by simp [hd])) (by
        intro h1 h2
        have := hx h1 h2
        unfold hexFollows at this
        exact (Bool.or_eq_false_iff.mp this).2)
      rw [decode_escOne g s.x esc c t _ hc (fun h => plain_noOct s esc t _ hnq h) ?_, ih]
      · rfl
      · intro hesc hg
        have h1 := hx (escOne_hex_style _ _ _ _ hc hesc) hg
        unfold hexFollows at h1
        have h2 := (Bool.or_eq_false_iff.mp h1).1
        rw [hesc, beq_self_eq_true, Bool.true_and] at h2
        intro a v hav
        cases hp : (plainLoop s esc t).1 with
        | nil => rw [hp] at hav; injection hav with hav _; subst hav; rfl
        | cons d r =>
          rw [hp] at hav h2
          injection hav with hav _
          rw [← hav]; exact h2

theorem decode_hex (g : Bool) (s : Style) (bs rest : List Nat) (hb : ∀ c ∈ bs, c < 256) :
    decodeBody g ((hexLoop s bs).1 ++ 34 :: rest) = some (shown s true bs, rest) := by
  induction bs with
  | nil => rw [decodeBody.eq_def]; simp [hexLoop, shown]
  | cons c t ih =>
    have hq : decodeBody g (34 :: rest) = some ([], rest) := by
      rw [decodeBody.eq_def]; simp
    unfold hexLoop shown
    split
    · exact hq
    · rw [if_neg (by simp)]
      have hc := hb c (by simp)
      have hnh : NoHex ((hexLoop s t).1 ++ 34 :: rest) := by
        cases t with
        | nil => intro a v h; injection h with h _; subst h; rfl
        | cons d t =>
          unfold hexLoop
          split
          · intro a v h; injection h with h _; subst h; rfl
          · intro a v h; injection h with h _; subst h; rfl
      have := decode_escape g (120 :: byteHex c) _ c hc
        (escape_hex g c hc ((hexLoop s t).1 ++ 34 :: rest) (fun _ => hnh))
      simp only [List.cons_append, List.append_assoc] at this ⊢
      rw [this, ih (fun d hd => hb d (by simp [hd]))]; rfl

/-! ### C09 -/

/-- C09.  In every quoting style with quotes, for every buffer: the printed text is a C string literal
that denotes exactly the bytes that were to be shown (followed by the comment terminator, if any).
`greedy` is the C rule for `\x`.  In the style that escapes single characters in hex (`-xx`-like
`non-ascii-chars`) this holds under the C rule only when no escape is followed by a hex digit; see
`quote_nonAsciiChars_ambiguous`. -/
theorem quote_roundtrip (greedy : Bool) (bs : List Nat) (peek : Nat) (s : Style) (esc : List Nat)
    (hb : ∀ c ∈ bs, c < 256) (hq : s.omitQuotes = false) (hcm : s.comment = false)
    (hx : s.x = .nonAsciiChars → greedy = true → hexFollows s esc bs = false) :
    decodeLit greedy (stringQuote bs peek s esc).1 = some (shown s (useHex s bs) bs, []) := by
  unfold stringQuote
  simp only [hq, hcm, Bool.false_eq_true, if_false, List.nil_append, List.append_nil]
  show decodeBody greedy (_ ++ [34]) = _
  cases hu : useHex s bs with
  | true => exact decode_hex greedy s bs [] hb
  | false => exact decode_plain greedy s esc bs [] hb hx

/-- the same with the comment decoration: the literal is followed by ` */` -/
theorem quote_roundtrip_comment (greedy : Bool) (bs : List Nat) (peek : Nat) (s : Style) (esc : List Nat)
    (hb : ∀ c ∈ bs, c < 256) (hq : s.omitQuotes = false) (hcm : s.comment = true)
    (hx : s.x = .nonAsciiChars → greedy = true → hexFollows s esc bs = false) :
    decodeLit greedy ((stringQuote bs peek s esc).1.drop 4) =
      some (shown s (useHex s bs) bs, [32, 42, 47]) := by
  unfold stringQuote
  simp only [hq, hcm, Bool.false_eq_true, if_false, if_true]
  show decodeBody greedy (_ ++ [34, 32, 42, 47]) = _
  cases hu : useHex s bs with
  | true => exact decode_hex greedy s bs _ hb
  | false => exact decode_plain greedy s esc bs _ hb hx

/-- what is shown, without the printer's loop: everything, or everything before the first NUL -/
theorem shown_all (s : Style) (hex : Bool) (bs : List Nat) (ht : s.term = false) (h0 : s.omit0 = false) :
    shown s hex bs = bs := by
  induction bs with
  | nil => rfl
  | cons c t ih => simp [shown, ht, h0, ih]

theorem shown_term (s : Style) (hex : Bool) (bs : List Nat) (ht : s.term = true) (h0 : s.omit0 = false) :
    shown s hex bs = bs.takeWhile (· != 0) := by
  induction bs with
  | nil => rfl
  | cons c t ih =>
    unfold shown
    rw [List.takeWhile_cons]
    by_cases hc : c = 0
    · subst hc; simp [ht]
    · have : (c == 0) = false := by simpa using hc
      have h2 : (c != 0) = true := by simpa using hc
      simp [ht, h0, this, h2, ih]

/-- C09, the consequence users rely on: two different buffers never print alike (any -x mode). -/
theorem quote_injective (bs bs' : List Nat) (p p' : Nat) (s : Style) (esc : List Nat)
    (hb : ∀ c ∈ bs, c < 256) (hb' : ∀ c ∈ bs', c < 256) (hq : s.omitQuotes = false)
    (hcm : s.comment = false) (ht : s.term = false) (h0 : s.omit0 = false)
    (h : (stringQuote bs p s esc).1 = (stringQuote bs' p' s esc).1) : bs = bs' := by
  have h1 := quote_roundtrip false bs p s esc hb hq hcm (by simp)
  have h2 := quote_roundtrip false bs' p' s esc hb' hq hcm (by simp)
  rw [h, h2] at h1
  injection h1 with h1
  injection h1 with h1 _
  rw [shown_all s _ _ ht h0, shown_all s _ _ ht h0] at h1
  exact h1.symm

/-- The style `non-ascii-chars` is ambiguous under the C rule: the bytes E9 'a' print as `"\xe9a"`,
which C reads as one (too large) character. -/
theorem quote_nonAsciiChars_ambiguous :
    let s : Style := ⟨false, false, false, false, false, .nonAsciiChars⟩
    (stringQuote [233, 97] 0 s []).1 = [34, 92, 120, 101, 57, 97, 34] ∧
    decodeLit true (stringQuote [233, 97] 0 s []).1 = none := by decide +kernel

/-- "a\0" '1' : the following digit forces the long octal form -/
example : (stringQuote [97, 0, 49] 0 ⟨false, false, false, false, false, .none⟩ []).1 =
    [34, 97, 92, 48, 48, 48, 49, 34] := by decide +kernel
example : ∀ c ∈ [97, 0, 49], c < 256 := by decide

/-! ### C10 -/

theorem byteOct_length (c : Nat) (b : Bool) : (byteOct c b).length ≤ 3 := by
  unfold byteOct
  repeat' split
  all_goals simp

theorem escOne_length (x : XStyle) (esc : List Nat) (c : Nat) (t : List Nat) :
    (escOne x esc c t).length ≤ 4 := by
  unfold escOne
  have := byteOct_length c (nextIsOct t)
  repeat' split
  all_goals (simp [byteHex] <;> omega)

theorem plainLoop_length (s : Style) (esc bs : List Nat) :
    (plainLoop s esc bs).1.length ≤ 4 * bs.length := by
  induction bs with
  | nil => simp [plainLoop]
  | cons c t ih =>
    unfold plainLoop
    have := escOne_length s.x esc c t
    repeat' split
    · simp
    · simp
    · simp only [List.length_append, List.length_cons]; omega

theorem hexLoop_length (s : Style) (bs : List Nat) : (hexLoop s bs).1.length ≤ 4 * bs.length := by
  induction bs with
  | nil => simp [hexLoop]
  | cons c t ih =>
    unfold hexLoop
    split
    · simp
    · simp [byteHex]; omega

/-- C10.  The bytes written (including the final NUL) when quoting `n` bytes. -/
theorem quote_length (bs : List Nat) (peek : Nat) (s : Style) (esc : List Nat) :
    (stringQuote bs peek s esc).1.length + 1 ≤
      4 * bs.length + 1 + (if s.omitQuotes then 0 else 2) + (if s.comment then 7 else 0) := by
  have h1 := plainLoop_length s esc bs
  have h2 := hexLoop_length s bs
  have h3 : (if useHex s bs then hexLoop s bs else plainLoop s esc bs).1.length ≤ 4 * bs.length := by
    split <;> assumption
  unfold stringQuote
  dsimp only
  simp only [List.length_append]
  cases s.omitQuotes <;> cases s.comment <;> simp at h3 ⊢ <;> omega

/-- C10 for `print_quoted_string_ex`: without the comment decoration the buffer, whose size is
computed in 32-bit arithmetic, always suffices. -/
theorem printQuoted_fits (bs : List Nat) (peek : Nat) (s : Style) (esc : List Nat) (a : Nat)
    (hcm : s.comment = false) (ha : quoteAlloc bs.length s = some a) :
    (stringQuote bs peek s esc).1.length + 1 ≤ a := by
  have h := quote_length bs peek s esc
  unfold quoteAlloc at ha
  dsimp only at ha
  split at ha
  · cases ha
  · rename_i hne
    injection ha with ha
    simp only [hcm, Bool.false_eq_true, if_false] at ha h
    have h4 : 4 * bs.length % 2 ^ 32 = 4 * bs.length := by omega
    rw [h4] at ha
    split at ha <;> rename_i ho <;> simp only [ho] at h <;> simp at h <;> omega

/-- … and with the comment decoration it suffices below 2^30 - 2 bytes … -/
theorem printQuoted_fits_comment_partial (bs : List Nat) (peek : Nat) (s : Style) (esc : List Nat) (a : Nat)
    (hl : bs.length < 2 ^ 30 - 2) (ha : quoteAlloc bs.length s = some a) :
    (stringQuote bs peek s esc).1.length + 1 ≤ a := by
  have h := quote_length bs peek s esc
  unfold quoteAlloc at ha
  dsimp only at ha
  split at ha
  · cases ha
  · injection ha with ha
    have h4 : 4 * bs.length % 2 ^ 32 = 4 * bs.length := by omega
    rw [h4] at ha
    cases ho : s.omitQuotes <;> cases hc : s.comment <;> simp [ho, hc] at h ha <;> omega

/-- … but at 2^30 - 1 bytes the size wraps around to 6. -/
theorem quoteAlloc_wraps : quoteAlloc (2 ^ 30 - 1) ⟨false, false, false, false, true, .none⟩ = some 6 := by
  decide +kernel

/-- C10 for `printstr_ex`: the static buffer of 4 * max_strlen + 3 bytes (util.c:1447) suffices for
every style without the comment decoration. -/
theorem printstr_fits (maxStrlen : Nat) (mem : Nat → Nat) (len : Nat) (s : Style) (old : List Nat)
    (hcm : s.comment = false) :
    (printstrEx maxStrlen mem len s old).text.length + 1 ≤ 4 * maxStrlen + 3 := by
  unfold printstrEx
  dsimp only
  refine Nat.le_trans (quote_length _ _ s []) ?_
  simp only [hcm, Bool.false_eq_true, if_false]
  have hs : (if s.omitQuotes then 0 else 2) ≤ 2 := by split <;> simp
  have hz : printstrSize maxStrlen len s ≤ maxStrlen := by
    unfold printstrSize
    dsimp only
    repeat' split
    all_goals omega
  rw [List.length_take]
  omega

/-! ### C11 -/

theorem plainLoop_ended (s : Style) (esc bs : List Nat) (ht : s.term = true) (h0 : s.omit0 = false) :
    (plainLoop s esc bs).2 = bs.contains 0 := by
  induction bs with
  | nil => rfl
  | cons c t ih =>
    unfold plainLoop
    rw [List.contains_cons]
    by_cases hc : c = 0
    · subst hc; simp [ht]
    · have h1 : (c == 0) = false := by simpa using hc
      have h2 : ((0 : Nat) == c) = false := by simpa using fun h => hc h.symm
      simp [ht, h0, h1, h2, ih]

theorem hexLoop_ended (s : Style) (bs : List Nat) (ht : s.term = true) :
    (hexLoop s bs).2 = bs.contains 0 := by
  induction bs with
  | nil => rfl
  | cons c t ih =>
    unfold hexLoop
    rw [List.contains_cons]
    by_cases hc : c = 0
    · subst hc; simp [ht]
    · have h1 : (c == 0) = false := by simpa using hc
      have h2 : ((0 : Nat) == c) = false := by simpa using fun h => hc h.symm
      simp [ht, h1, h2, ih]

/-- return value of `string_quote` for NUL-terminated strings: 0 iff a NUL was seen, counting the byte
after the `size` bytes -/
theorem quote_rc (bs : List Nat) (peek : Nat) (s : Style) (esc : List Nat) (ht : s.term = true)
    (h0 : s.omit0 = false) :
    (stringQuote bs peek s esc).2 = 0 ↔ 0 ∈ bs ∨ peek = 0 := by
  have h : (if useHex s bs then hexLoop s bs else plainLoop s esc bs).2 = bs.contains 0 := by
    split
    · exact hexLoop_ended s bs ht
    · exact plainLoop_ended s esc bs ht h0
  unfold stringQuote
  dsimp only
  rw [h, ht, List.contains_eq_mem]
  by_cases hm : 0 ∈ bs
  · simp [hm]
  · by_cases hp : peek = 0 <;> simp [hm, hp]

/-- for other strings it is always 1 (unless a trailing NUL is omitted) -/
theorem quote_rc_one (bs : List Nat) (peek : Nat) (s : Style) (esc : List Nat) (ht : s.term = false)
    (h0 : s.omit0 = false) : (stringQuote bs peek s esc).2 = 1 := by
  have hp : (plainLoop s esc bs).2 = false := by
    induction bs with
    | nil => rfl
    | cons c t ih => simp [plainLoop, ht, h0, ih]
  have hh : (hexLoop s bs).2 = false := by
    induction bs with
    | nil => rfl
    | cons c t ih => simp [hexLoop, ht]; apply ih; unfold plainLoop at hp; simpa [ht, h0] using hp
  unfold stringQuote
  dsimp only
  split <;> simp [ht, hp, hh]

/-- `mem` holds the string `str` followed by a NUL -/
def HasStr (mem : Nat → Nat) (str : List Nat) : Prop :=
  (∀ c ∈ str, c ≠ 0 ∧ c < 256) ∧ (∀ i, (h : i < str.length) → mem i = str[i]) ∧ mem str.length = 0

theorem mem_prefix (mem : Nat → Nat) (str : List Nat) (h : HasStr mem str) (size : Nat) :
    (size ≤ str.length → (List.range size).map mem = str.take size) ∧
    (str.length < size → ∃ tl, (List.range size).map mem = str ++ 0 :: tl) := by
  have base : ∀ size, size ≤ str.length → (List.range size).map mem = str.take size := by
    intro size hs
    apply List.ext_getElem
    · simp; omega
    · intro i h1 h2
      simp at h1
      simp [h.2.1 i (by omega)]
  refine ⟨base size, fun hs => ?_⟩
  obtain ⟨d, rfl⟩ := Nat.exists_eq_add_of_lt hs
  refine ⟨(List.range d).map fun i => mem (str.length + 1 + i), ?_⟩
  rw [show str.length + d + 1 = str.length + (1 + d) by omega, List.range_add, List.map_append,
    base _ (Nat.le_refl _), List.take_length, List.range_add]
  simp only [List.map_append, List.map_map]
  simp only [List.range_one, List.map_cons, List.map_nil, Nat.add_zero, h.2.2, List.cons_append,
    List.nil_append, Function.comp_def]
  congr 2
  apply List.map_congr_left
  intro i _
  show mem (str.length + (1 + i)) = _
  congr 1; omega

theorem findIdx_none_of (str : List Nat) (h : ∀ c ∈ str, c ≠ 0) : str.findIdx? (· == 0) = none := by
  rw [List.findIdx?_eq_none_iff]
  intro c hc
  simpa using h c hc

theorem findIdx_str (str tl : List Nat) (h : ∀ c ∈ str, c ≠ 0) :
    (str ++ 0 :: tl).findIdx? (· == 0) = some str.length := by
  rw [List.findIdx?_append, findIdx_none_of str h]
  simp [List.findIdx?_cons]

theorem fetchStr_eq (mem : Nat → Nat) (str : List Nat) (h : HasStr mem str) (size : Nat) (old : List Nat) :
    (size ≤ str.length → fetchStr mem size old = str.take size ++ old.drop size ∧ fetchStrRc mem size = 0) ∧
    (str.length < size → fetchStr mem size old = str ++ 0 :: old.drop (str.length + 1) ∧
      fetchStrRc mem size = str.length + 1) := by
  have hnz : ∀ c ∈ str, c ≠ 0 := fun c hc => (h.1 c hc).1
  obtain ⟨h1, h2⟩ := mem_prefix mem str h size
  unfold fetchStr fetchStrRc
  dsimp only
  constructor
  · intro hs
    have hf := findIdx_none_of _ (fun c hc => hnz c (List.mem_of_mem_take (i := size) hc))
    simp only [h1 hs, hf]
    exact ⟨trivial, trivial⟩
  · intro hs
    obtain ⟨tl, e⟩ := h2 hs
    simp only [e, findIdx_str str tl hnz]
    refine ⟨?_, trivial⟩
    show (str ++ 0 :: tl).take (str.length + 1) ++ old.drop (str.length + 1) = _
    rw [List.take_append, List.take_of_length_le (by omega)]
    simp

theorem takeWhile_str (str u : List Nat) (k : Nat) (h : ∀ c ∈ str, c ≠ 0) :
    ((str ++ 0 :: u).take k).takeWhile (· != 0) = str.take k := by
  induction str generalizing k with
  | nil => cases k <;> simp
  | cons c t ih =>
    cases k with
    | zero => simp
    | succ k =>
      have hc : (c != 0) = true := by simpa using h c (by simp)
      simp only [List.cons_append, List.take_succ_cons, List.takeWhile_cons, hc, if_true]
      rw [ih k (fun d hd => h d (by simp [hd]))]

theorem takeWhile_all (l : List Nat) (h : ∀ c ∈ l, c ≠ 0) : l.takeWhile (· != 0) = l := by
  induction l with
  | nil => rfl
  | cons c t ih =>
    have hc : (c != 0) = true := by simpa using h c (by simp)
    rw [List.takeWhile_cons, hc, if_pos rfl, ih (fun d hd => h d (by simp [hd]))]

/-- the plain style of `printstr`: NUL-terminated, with quotes -/
def strStyle (x : XStyle) : Style := ⟨true, false, false, false, false, x⟩

/-- C11 for `printstr` (`len` is -1, i.e. beyond every limit).  A readable NUL-terminated string, any
-s limit, any previous content of the buffer: what is printed is a literal denoting the first
`maxStrlen` bytes, followed by `...` iff the string is longer than the limit. -/
theorem printstr_ellipsis (maxStrlen len : Nat) (mem : Nat → Nat) (str old : List Nat) (x : XStyle)
    (greedy : Bool) (hx : x = .nonAsciiChars → greedy = false)
    (hlen : maxStrlen < len) (hs : HasStr mem str) (hold : ∀ c ∈ old, c < 256) :
    decodeLit greedy (printstrEx maxStrlen mem len (strStyle x) old).text =
      some (str.take maxStrlen, []) ∧
    ((printstrEx maxStrlen mem len (strStyle x) old).ellipsis = true ↔ maxStrlen < str.length) := by
  have hnz : ∀ c ∈ str, c ≠ 0 := fun c hc => (hs.1 c hc).1
  have hn : printstrSize maxStrlen len (strStyle x) = maxStrlen := by
    unfold printstrSize strStyle
    dsimp only
    rw [if_neg (show ¬ maxStrlen + 1 > len by omega)]
    simp
  have hbuf : printstrBuf maxStrlen mem len (strStyle x) old = fetchStr mem (maxStrlen + 1) old := by
    unfold printstrBuf strStyle
    dsimp only
    rw [if_neg (by omega : ¬ maxStrlen + 1 > len)]
    simp
  obtain ⟨f1, f2⟩ := fetchStr_eq mem str hs (maxStrlen + 1) old
  have hb : ∀ c ∈ (fetchStr mem (maxStrlen + 1) old).take maxStrlen, c < 256 := by
    intro c hc
    have hc := List.mem_of_mem_take hc
    by_cases hl : maxStrlen + 1 ≤ str.length
    · rw [(f1 hl).1, List.mem_append] at hc
      rcases hc with hc | hc
      · exact (hs.1 c (List.mem_of_mem_take hc)).2
      · exact hold c (List.mem_of_mem_drop hc)
    · rw [(f2 (by omega)).1, List.mem_append, List.mem_cons] at hc
      rcases hc with hc | hc | hc
      · exact (hs.1 c hc).2
      · omega
      · exact hold c (List.mem_of_mem_drop hc)
  unfold printstrEx
  rw [hn, hbuf]
  dsimp only
  constructor
  · rw [quote_roundtrip greedy _ _ (strStyle x) [] hb rfl rfl (by
      intro h1 h2; have := hx h1; rw [this] at h2; cases h2)]
    rw [shown_term _ _ _ rfl rfl]
    congr 2
    by_cases hl : maxStrlen + 1 ≤ str.length
    · rw [(f1 hl).1, List.take_append_of_le_length (by simp; omega), List.take_take,
        show min maxStrlen (maxStrlen + 1) = maxStrlen by omega]
      exact takeWhile_all _ (fun c hc => hnz c (List.mem_of_mem_take hc))
    · rw [(f2 (by omega)).1]
      exact takeWhile_str str _ maxStrlen hnz
  · have hl0 : (len != 0) = true := by simp; omega
    have hd : decide (len > maxStrlen) = true := by simpa using hlen
    rw [hl0, hd]
    simp only [Bool.and_true, Bool.or_true, bne_iff_ne, ne_eq]
    rw [quote_rc _ _ (strStyle x) [] rfl rfl]
    by_cases hl : maxStrlen + 1 ≤ str.length
    · rw [(f1 hl).1, List.take_append_of_le_length (by simp; omega)]
      have h1 : ¬ 0 ∈ (str.take (maxStrlen + 1)).take maxStrlen := by
        intro h; exact hnz 0 (List.mem_of_mem_take (List.mem_of_mem_take h)) rfl
      have h2 : (str.take (maxStrlen + 1) ++ old.drop (maxStrlen + 1)).getD maxStrlen 255 ≠ 0 := by
        rw [List.getD_eq_getElem?_getD, List.getElem?_append_left (by simp; omega),
          List.getElem?_take_of_lt (by omega), List.getElem?_eq_getElem (by omega)]
        exact hnz _ (List.getElem_mem _)
      rw [or_iff_right h1]
      exact ⟨fun _ => by omega, fun _ => h2⟩
    · rw [(f2 (by omega)).1]
      have : ¬ maxStrlen < str.length := by omega
      simp only [this, iff_false, Classical.not_not]
      by_cases he : str.length = maxStrlen
      · right
        rw [← he, List.getD_eq_getElem?_getD, List.getElem?_append_right (by omega)]
        simp
      · left
        rw [List.take_append]
        simp only [List.mem_append]
        right
        obtain ⟨k, hk⟩ : ∃ k, maxStrlen - str.length = k + 1 := ⟨maxStrlen - str.length - 1, by omega⟩
        rw [hk]; simp

/-- C11 for NUL-terminated strings with an explicit bound `0 < len ≤ maxStrlen`: the first `len` bytes of
the string, followed by `...` iff there is no NUL among them. -/
theorem printstr_bounded_ellipsis (maxStrlen len : Nat) (mem : Nat → Nat) (str old : List Nat) (x : XStyle)
    (greedy : Bool) (hx : x = .nonAsciiChars → greedy = false)
    (hlen : len ≤ maxStrlen) (hl0 : 0 < len) (hs : HasStr mem str) (hold : ∀ c ∈ old, c < 256) :
    decodeLit greedy (printstrEx maxStrlen mem len (strStyle x) old).text =
      some (str.take len, []) ∧
    ((printstrEx maxStrlen mem len (strStyle x) old).ellipsis = true ↔ len ≤ str.length) := by
  have hnz : ∀ c ∈ str, c ≠ 0 := fun c hc => (hs.1 c hc).1
  have hn : printstrSize maxStrlen len (strStyle x) = len := by
    unfold printstrSize strStyle
    dsimp only
    rw [if_pos (show maxStrlen + 1 > len by omega)]
    simp; omega
  have hbuf : printstrBuf maxStrlen mem len (strStyle x) old = (fetchStr mem len old).set len 255 := by
    unfold printstrBuf strStyle
    dsimp only
    rw [if_pos (by omega : maxStrlen + 1 > len)]
    simp; omega
  obtain ⟨f1, f2⟩ := fetchStr_eq mem str hs len old
  have hpeek : ((fetchStr mem len old).set len 255).getD len 255 = 255 := by
    rw [List.getD_eq_getElem?_getD, List.getElem?_set]
    simp
    split <;> rfl
  have hbs : ((fetchStr mem len old).set len 255).take len = (fetchStr mem len old).take len :=
    List.take_set_of_le (by omega)
  have hb : ∀ c ∈ (fetchStr mem len old).take len, c < 256 := by
    intro c hc
    have hc := List.mem_of_mem_take hc
    by_cases hl : len ≤ str.length
    · rw [(f1 hl).1, List.mem_append] at hc
      rcases hc with hc | hc
      · exact (hs.1 c (List.mem_of_mem_take hc)).2
      · exact hold c (List.mem_of_mem_drop hc)
    · rw [(f2 (by omega)).1, List.mem_append, List.mem_cons] at hc
      rcases hc with hc | hc | hc
      · exact (hs.1 c hc).2
      · omega
      · exact hold c (List.mem_of_mem_drop hc)
  unfold printstrEx
  rw [hn, hbuf]
  dsimp only
  rw [hpeek, hbs]
  constructor
  · rw [quote_roundtrip greedy _ _ (strStyle x) [] hb rfl rfl (by
      intro h1 h2; have := hx h1; rw [this] at h2; cases h2)]
    rw [shown_term _ _ _ rfl rfl]
    congr 2
    by_cases hl : len ≤ str.length
    · rw [(f1 hl).1, List.take_append_of_le_length (by simp; omega), List.take_take, Nat.min_self]
      exact takeWhile_all _ (fun c hc => hnz c (List.mem_of_mem_take hc))
    · rw [(f2 (by omega)).1]
      exact takeWhile_str str _ len hnz
  · have hl0 : (len != 0) = true := by simp; omega
    have ht : (strStyle x).term = true := rfl
    rw [hl0, ht]
    simp only [Bool.and_true, Bool.true_or, bne_iff_ne, ne_eq]
    rw [quote_rc _ _ (strStyle x) [] rfl rfl]
    by_cases hl : len ≤ str.length
    · rw [(f1 hl).1, List.take_append_of_le_length (by simp; omega)]
      have h1 : ¬ 0 ∈ (str.take len).take len := by
        intro h; exact hnz 0 (List.mem_of_mem_take (List.mem_of_mem_take h)) rfl
      rw [or_iff_right h1]
      exact ⟨fun _ => hl, fun _ => by decide⟩
    · rw [(f2 (by omega)).1]
      simp only [hl, iff_false, Classical.not_not]
      left
      rw [List.take_append]
      simp only [List.mem_append]
      right
      obtain ⟨k, hk⟩ : ∃ k, len - str.length = k + 1 := ⟨len - str.length - 1, by omega⟩
      rw [hk]; simp

/-- C11 for `printstrn` (a buffer of known length): the first `min len maxStrlen` bytes, followed by
`...` iff `len` exceeds the limit. -/
theorem printstrn_ellipsis (maxStrlen len : Nat) (mem : Nat → Nat) (old : List Nat) (x : XStyle)
    (greedy : Bool) (hx : x = .nonAsciiChars → greedy = false) (hm : ∀ i, mem i < 256) :
    let s : Style := ⟨false, false, false, false, false, x⟩
    decodeLit greedy (printstrEx maxStrlen mem len s old).text =
      some ((List.range (min len maxStrlen)).map mem, []) ∧
    ((printstrEx maxStrlen mem len s old).ellipsis = true ↔ maxStrlen < len) := by
  intro s
  have hn : printstrSize maxStrlen len s = min len maxStrlen := by
    show (if (if maxStrlen + 1 > len then len else maxStrlen + 1) > maxStrlen then maxStrlen
      else if maxStrlen + 1 > len then len else maxStrlen + 1) = _
    repeat' split
    all_goals omega
  have hbuf : (printstrBuf maxStrlen mem len s old).take (min len maxStrlen) =
      (List.range (min len maxStrlen)).map mem := by
    unfold printstrBuf
    dsimp only
    have ht : s.term = false := rfl
    rw [ht]
    simp only [Bool.false_eq_true, if_false]
    by_cases hc : maxStrlen + 1 > len
    · rw [if_pos hc, if_neg (by omega), List.take_set_of_le (by omega),
        List.take_append_of_le_length (by simp; omega), show min len maxStrlen = len by omega]
      rw [List.take_of_length_le (by simp)]
    · rw [if_neg hc, if_pos (by omega), List.take_append_of_le_length (by simp; omega), ← List.map_take,
        List.take_range]
      congr 2; omega
  unfold printstrEx
  rw [hn]
  dsimp only
  rw [hbuf]
  constructor
  · rw [quote_roundtrip greedy _ _ s [] (by intro c hc; simp at hc; obtain ⟨i, _, rfl⟩ := hc; exact hm i)
      rfl rfl (by intro h1 h2; have := hx h1; rw [this] at h2; cases h2)]
    rw [shown_all s _ _ rfl rfl]
  · rw [quote_rc_one _ _ s [] rfl rfl]
    have ht : s.term = false := rfl
    have he : s.expect0 = false := rfl
    simp only [ht, he]
    simp
    omega

/-- C11 for paths: `printpathn` with limit `n` prints the path whole iff it is shorter than the limit
(4096 at most), and otherwise its first `limit - 1` bytes followed by `...`. -/
theorem printpath_ellipsis (n : Nat) (hn : 1 ≤ n) (mem : Nat → Nat) (str old : List Nat) (x : XStyle)
    (greedy : Bool) (hx : x = .nonAsciiChars → greedy = false) (hs : HasStr mem str) :
    decodeLit greedy (printpathn mem n old x).text = some (str.take (min n 4096 - 1), []) ∧
    ((printpathn mem n old x).ellipsis = true ↔ min n 4096 ≤ str.length) := by
  have hnz : ∀ c ∈ str, c ≠ 0 := fun c hc => (hs.1 c hc).1
  unfold printpathn
  have hm : (if n > 4096 then 4096 else n) = min n 4096 := by split <;> omega
  dsimp only
  rw [hm]
  generalize hN : min n 4096 = N
  have hN1 : 1 ≤ N := by omega
  clear hm hN
  obtain ⟨f1, f2⟩ := fetchStr_eq mem str hs N old
  unfold printQuotedCstring printQuotedStringEx
  dsimp only
  have key : ∀ (bs : List Nat) (peek : Nat), (∀ c ∈ bs, c < 256) →
      decodeLit greedy (stringQuote bs peek (strStyle x) []).1 = some (bs.takeWhile (· != 0), []) := by
    intro bs peek hb
    rw [quote_roundtrip greedy bs peek (strStyle x) [] hb rfl rfl (by
      intro h1 h2; have := hx h1; rw [this] at h2; cases h2), shown_term _ _ _ rfl rfl]
  have key2 := fun bs peek => quote_rc bs peek (strStyle x) [] rfl rfl
  unfold strStyle at key key2
  by_cases hl : N ≤ str.length
  · rw [(f1 hl).1, (f1 hl).2]
    have e : (if N ≠ 0 ∧ true = true then N - 1 else N) = N - 1 := by rw [if_pos ⟨by omega, rfl⟩]
    rw [if_pos (rfl : (0 : Nat) = 0), e]
    have hb : (str.take N ++ old.drop N).take (N - 1) = str.take (N - 1) := by
      rw [List.take_append_of_le_length (by simp; omega), List.take_take, show min (N - 1) N = N - 1 by omega]
    rw [hb]
    refine ⟨?_, ?_⟩
    · rw [key _ _ (fun c hc => (hs.1 c (List.mem_of_mem_take hc)).2),
        takeWhile_all _ (fun c hc => hnz c (List.mem_of_mem_take hc))]
    · simp only [Bool.and_false, Bool.false_and, Bool.false_or, bne_iff_ne, ne_eq, hl, iff_true]
      rw [key2]
      rintro (h | h)
      · exact hnz 0 (List.mem_of_mem_take h) rfl
      · rw [List.getD_eq_getElem?_getD, List.getElem?_append_left (by simp; omega),
          List.getElem?_take_of_lt (by omega), List.getElem?_eq_getElem (by omega)] at h
        exact hnz _ (List.getElem_mem _) h
  · rw [(f2 (by omega)).1, (f2 (by omega)).2]
    have e0 : (if str.length + 1 = 0 then N else str.length + 1) = str.length + 1 := rfl
    rw [e0]
    have e : (if str.length + 1 ≠ 0 ∧ true = true then str.length + 1 - 1 else str.length + 1) = str.length := by
      rw [if_pos ⟨by omega, rfl⟩]; rfl
    rw [e]
    have hb : (str ++ 0 :: old.drop (str.length + 1)).take str.length = str := by simp
    rw [hb]
    refine ⟨?_, ?_⟩
    · rw [key _ _ (fun c hc => (hs.1 c hc).2), takeWhile_all _ hnz, List.take_of_length_le (by omega)]
    · simp only [Bool.and_false, Bool.false_and, Bool.false_or, bne_iff_ne, ne_eq, hl, iff_false, Classical.not_not]
      rw [key2]
      right
      rw [List.getD_eq_getElem?_getD, List.getElem?_append_right (by omega)]
      simp

/-! ### C57: only printable ASCII -/

theorem hexChar_print (n : Nat) (h : n < 16) : 32 ≤ hexChar n ∧ hexChar n < 127 := by
  unfold hexChar; split <;> omega

theorem escOne_print (x : XStyle) (esc : List Nat) (c : Nat) (t : List Nat) (hc : c < 256) :
    ∀ d ∈ escOne x esc c t, 32 ≤ d ∧ d < 127 := by
  intro d hd
  have h1 := hexChar_print (c / 16) (by omega)
  have h2 := hexChar_print (c % 16) (by omega)
  unfold escOne at hd
  split at hd
  · simp at hd; omega
  split at hd
  · simp at hd; omega
  split at hd
  · simp at hd; omega
  split at hd
  · simp at hd; omega
  split at hd
  · simp at hd; omega
  split at hd
  · simp at hd; omega
  split at hd
  · rename_i hp
    simp [isPrint] at hp hd
    omega
  split at hd
  · simp [byteHex] at hd
    rcases hd with rfl | rfl | rfl | rfl <;> first | exact h1 | exact h2 | omega
  · unfold byteOct at hd
    repeat' split at hd
    all_goals (simp at hd; omega)

theorem hexLoop_print (s : Style) (bs : List Nat) (hb : ∀ c ∈ bs, c < 256) :
    ∀ d ∈ (hexLoop s bs).1, 32 ≤ d ∧ d < 127 := by
  induction bs with
  | nil => simp [hexLoop]
  | cons c t ih =>
    have hc := hb c (by simp)
    have h1 := hexChar_print (c / 16) (by omega)
    have h2 := hexChar_print (c % 16) (by omega)
    have ih := ih fun e he => hb e (by simp [he])
    intro d hd
    unfold hexLoop at hd
    split at hd
    · simp at hd
    · simp [byteHex] at hd
      rcases hd with rfl | rfl | rfl | rfl | hd
      · omega
      · omega
      · exact h1
      · exact h2
      · exact ih d hd

theorem plainLoop_print (s : Style) (esc bs : List Nat) (hb : ∀ c ∈ bs, c < 256) :
    ∀ d ∈ (plainLoop s esc bs).1, 32 ≤ d ∧ d < 127 := by
  induction bs with
  | nil => simp [plainLoop]
  | cons c t ih =>
    have ih := ih fun e he => hb e (by simp [he])
    intro d hd
    unfold plainLoop at hd
    split at hd
    · simp at hd
    split at hd
    · simp at hd
    · rcases List.mem_append.1 hd with hd | hd
      · exact escOne_print _ _ _ _ (hb c (by simp)) d hd
      · exact ih d hd

/-- C57.  Whatever bytes a tracee puts into a string, and in every style, the quoted text consists of
printable ASCII characters only: no control character, newline or escape sequence reaches the terminal. -/
theorem quote_printable (bs : List Nat) (peek : Nat) (s : Style) (esc : List Nat) (hb : ∀ c ∈ bs, c < 256) :
    ∀ d ∈ (stringQuote bs peek s esc).1, 32 ≤ d ∧ d < 127 := by
  intro d hd
  unfold stringQuote at hd
  dsimp only at hd
  simp only [List.mem_append] at hd
  have q : ∀ b : Bool, d ∈ (if b then [] else [34] : List Nat) → d = 34 := by intro b; cases b <;> simp
  have p1 : ∀ b : Bool, d ∈ (if b then [32, 47, 42, 32] else [] : List Nat) → 32 ≤ d ∧ d < 127 := by
    intro b; cases b <;> simp; omega
  have p2 : ∀ b : Bool, d ∈ (if b then [32, 42, 47] else [] : List Nat) → 32 ≤ d ∧ d < 127 := by
    intro b; cases b <;> simp; omega
  rcases hd with ((h | h) | h) | (h | h)
  · exact p1 _ h
  · have := q _ h; omega
  · split at h
    · exact hexLoop_print s bs hb d h
    · exact plainLoop_print s esc bs hb d h
  · have := q _ h; omega
  · exact p2 _ h

/-- … and a character the caller wants escaped (`escape_chars`) never appears literally as a byte of the
string: the piece of text of such a byte starts with a backslash. -/
theorem escape_chars_escaped (x : XStyle) (esc : List Nat) (c : Nat) (t : List Nat) (hc : c ∈ esc) :
    (escOne x esc c t).head? = some 92 := by
  have h : esc.contains c = true := by simpa using hc
  unfold escOne
  simp only [h]
  repeat' split
  all_goals first | rfl | simp_all

/-! ### C58: when hex is used -/

/-- `\xHH` for each byte -/
def allHex (bs : List Nat) : List Nat := bs.flatMap fun c => [92, 120, hexChar (c / 16), hexChar (c % 16)]

/-- the bytes that belong to the string: those before the first NUL, or all of them -/
def stringBytes (term : Bool) (bs : List Nat) : List Nat := if term then bs.takeWhile (· != 0) else bs

theorem hexLoop_eq (s : Style) (bs : List Nat) : (hexLoop s bs).1 = allHex (stringBytes s.term bs) := by
  induction bs with
  | nil => cases s.term <;> rfl
  | cons c t ih =>
    unfold hexLoop
    cases ht : s.term with
    | false => rw [ht] at ih; simp [ih, allHex, stringBytes, byteHex]
    | true =>
      rw [ht] at ih
      by_cases hc : c = 0
      · subst hc; simp [stringBytes, allHex]
      · have h1 : (c == 0) = false := by simpa using hc
        have h2 : (c != 0) = true := by simpa using hc
        simp only [h1, Bool.and_false, Bool.false_eq_true, if_false, ih]
        simp [stringBytes, allHex, h2, byteHex]

theorem needHex_eq (s : Style) (bs : List Nat) : needHex s bs =
    (stringBytes s.term bs).any fun c => decide (c < 9 ∨ (14 ≤ c ∧ c < 32) ∨ 127 ≤ c) := by
  induction bs with
  | nil => cases s.term <;> rfl
  | cons c t ih =>
    unfold needHex
    cases ht : s.term with
    | true =>
      rw [ht] at ih
      by_cases hc : c = 0
      · subst hc; simp [stringBytes]
      · have h1 : (c == 0) = false := by simpa using hc
        have h2 : (c != 0) = true := by simpa using hc
        simp only [h1, Bool.and_false, Bool.false_eq_true, if_false, ih]
        simp only [stringBytes, if_true, List.takeWhile_cons, h2, List.any_cons]
        by_cases h3 : c > 126
        · simp [h3]; left; omega
        · by_cases h4 : c < 32 ∧ ¬ (9 ≤ c ∧ c ≤ 13)
          · have : (decide (c < 32) && !(decide (9 ≤ c) && decide (c ≤ 13))) = true := by simp; omega
            rw [if_neg h3, if_pos this]; symm; rw [Bool.or_eq_true]; left; simp; omega
          · have : ¬ (decide (c < 32) && !(decide (9 ≤ c) && decide (c ≤ 13))) = true := by simp; omega
            rw [if_neg h3, if_neg this]
            have : decide (c < 9 ∨ (14 ≤ c ∧ c < 32) ∨ 127 ≤ c) = false := by simp; omega
            rw [this, Bool.false_or]
    | false =>
      rw [ht] at ih
      simp only [Bool.false_and, Bool.false_eq_true, if_false, ih, stringBytes, List.any_cons]
      by_cases h3 : c > 126
      · simp [h3]; left; omega
      · by_cases h4 : c < 32 ∧ ¬ (9 ≤ c ∧ c ≤ 13)
        · have : (decide (c < 32) && !(decide (9 ≤ c) && decide (c ≤ 13))) = true := by simp; omega
          rw [if_neg h3, if_pos this]; symm; rw [Bool.or_eq_true]; left; simp; omega
        · have : ¬ (decide (c < 32) && !(decide (9 ≤ c) && decide (c ≤ 13))) = true := by simp; omega
          rw [if_neg h3, if_neg this]
          have : decide (c < 9 ∨ (14 ≤ c ∧ c < 32) ∨ 127 ≤ c) = false := by simp; omega
          rw [this, Bool.false_or]

/-- C58, `-xx`: every string is printed as `\xHH` throughout. -/
theorem xx_all_hex (bs : List Nat) (peek : Nat) (s : Style) (esc : List Nat) (hx : s.x = .all)
    (hc : s.comment = false) (ho : s.omitQuotes = false) :
    (stringQuote bs peek s esc).1 = [34] ++ allHex (stringBytes s.term bs) ++ [34] := by
  unfold stringQuote useHex
  simp [hx, hc, ho, hexLoop_eq]

/-- C58, `-x`: a string with a byte that is neither printable ASCII nor one of the blanks 9 … 13 is
printed as `\xHH` throughout; every other string is printed exactly as without the option. -/
theorem x_nonAscii (bs : List Nat) (peek : Nat) (s : Style) (esc : List Nat) (hx : s.x = .nonAscii)
    (hc : s.comment = false) (ho : s.omitQuotes = false) :
    ((∃ c ∈ stringBytes s.term bs, c < 9 ∨ (14 ≤ c ∧ c < 32) ∨ 127 ≤ c) →
      (stringQuote bs peek s esc).1 = [34] ++ allHex (stringBytes s.term bs) ++ [34]) ∧
    ((¬ ∃ c ∈ stringBytes s.term bs, c < 9 ∨ (14 ≤ c ∧ c < 32) ∨ 127 ≤ c) →
      (stringQuote bs peek s esc).1 = (stringQuote bs peek { s with x := .none } esc).1) := by
  have hu : useHex s bs = needHex s bs := by unfold useHex; rw [hx]
  constructor
  · rintro ⟨c, h1, h2⟩
    have hn : needHex s bs = true := by
      rw [needHex_eq, List.any_eq_true]; exact ⟨c, h1, by simpa using h2⟩
    unfold stringQuote
    simp [hu, hn, hc, ho, hexLoop_eq]
  · intro h
    have hn : needHex s bs = false := by
      rw [needHex_eq, List.any_eq_false]
      intro c hc hd
      exact h ⟨c, hc, by simpa using hd⟩
    have hp : ∀ bs, plainLoop s esc bs = plainLoop { s with x := .none } esc bs := by
      intro bs
      induction bs with
      | nil => rfl
      | cons c t ih =>
        unfold plainLoop
        rw [ih]
        have : escOne s.x esc c t = escOne .none esc c t := by
          unfold escOne; rw [hx]; simp
        rw [this]
    unfold stringQuote
    rw [hu, hn, hp]
    rfl

/-- "a\377" in the three modes -/
example : (stringQuote [97, 255] 0 (strStyle .nonAscii) []).1 =
    [34, 92, 120, 54, 49, 92, 120, 102, 102, 34] := by decide +kernel

/-- a string exactly at the limit, and one byte beyond -/
example : HasStr (fun i => [97, 98, 99].getD i 0) [97, 98, 99] := by
  refine ⟨by decide, ?_, by decide⟩
  intro i h
  simp only [List.length_cons, List.length_nil] at h
  match i, h with
  | 0, _ => rfl
  | 1, _ => rfl
  | 2, _ => rfl
example : printstrEx 3 (fun i => [97, 98, 99].getD i 0) 100 (strStyle .none) [0, 0, 0, 0] =
    ⟨[34, 97, 98, 99, 34], false⟩ := by decide +kernel
example : printstrEx 2 (fun i => [97, 98, 99].getD i 0) 100 (strStyle .none) [0, 0, 0] =
    ⟨[34, 97, 98, 34], true⟩ := by decide +kernel

end Strace.Quote
