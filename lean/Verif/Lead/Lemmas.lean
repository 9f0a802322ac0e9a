import Verif.Lead.Spec
import Verif.Quote.Props
/-!
# Reading back what comes first in a line
-/
namespace Strace.Lead
open Strace.Base

/-! ### Runs of characters -/

theorem takeWhile_run (p : Nat → Bool) (u r : List Nat) (hu : ∀ c ∈ u, p c = true) (hr : ∀ c, r.head? = some c → p c = false) :
    (u ++ r).takeWhile p = u := by
  induction u with
  | nil =>
    cases r with
    | nil => rfl
    | cons a r => simp [hr a rfl]
  | cons a u ih =>
    rw [List.cons_append, List.takeWhile_cons, if_pos (hu a (by simp)), ih (fun c hc => hu c (by simp [hc]))]

theorem dropWhile_run (p : Nat → Bool) (u r : List Nat) (hu : ∀ c ∈ u, p c = true) (hr : ∀ c, r.head? = some c → p c = false) :
    (u ++ r).dropWhile p = r := by
  induction u with
  | nil =>
    cases r with
    | nil => rfl
    | cons a r => simp [hr a rfl]
  | cons a u ih =>
    rw [List.cons_append, List.dropWhile_cons, if_pos (hu a (by simp)), ih (fun c hc => hu c (by simp [hc]))]

/-- no digit comes first -/
def NoDigit (r : List Nat) : Prop := ∀ c, r.head? = some c → isDigit c = false

theorem isDigit_iff (c : Nat) : isDigit c = true ↔ 48 ≤ c ∧ c ≤ 57 := by simp [isDigit]

theorem digits_run (u r : List Nat) (hu : ∀ c ∈ u, 48 ≤ c ∧ c ≤ 57) (hr : NoDigit r) : digits (u ++ r) = u :=
  takeWhile_run _ _ _ (fun c hc => (isDigit_iff c).mpr (hu c hc)) hr

theorem afterDigits_run (u r : List Nat) (hu : ∀ c ∈ u, 48 ≤ c ∧ c ≤ 57) (hr : NoDigit r) : afterDigits (u ++ r) = r :=
  dropWhile_run _ _ _ (fun c hc => (isDigit_iff c).mpr (hu c hc)) hr

theorem noDigit_cons (a : Nat) (r : List Nat) (h : a < 48 ∨ 57 < a) : NoDigit (a :: r) := by
  intro c hc
  cases hc
  simp [isDigit]
  omega

theorem skipSp_run (n : Nat) (r : List Nat) (hr : r.head? ≠ some 32) : skipSp (List.replicate n 32 ++ r) = r :=
  dropWhile_run _ _ _ (fun c hc => by rw [List.eq_of_mem_replicate hc]; rfl)
    (fun c hc => by
      have : c ≠ 32 := fun h => hr (by rw [hc, h])
      simp [this])

theorem dec_head (n : Nat) : ∃ c u, dec n = c :: u ∧ 48 ≤ c ∧ c ≤ 57 := by
  cases h : dec n with
  | nil => exact absurd h (dec_ne_nil n)
  | cons c u => exact ⟨c, u, rfl, dec_digit n c (by rw [h]; simp)⟩

theorem decI_head (x : Int) : ∃ c u, decI x = c :: u ∧ (c = 45 ∨ 48 ≤ c ∧ c ≤ 57) := by
  unfold decI
  split
  · exact ⟨_, _, rfl, Or.inl rfl⟩
  · obtain ⟨c, u, h, hc⟩ := dec_head x.natAbs
    exact ⟨c, u, h, Or.inr hc⟩

theorem decI_chars (x : Int) : ∀ c ∈ decI x, c = 45 ∨ 48 ≤ c ∧ c ≤ 57 := by
  unfold decI
  split
  · intro c hc
    rcases List.mem_cons.mp hc with h | h
    · exact Or.inl h
    · exact Or.inr (dec_digit _ c h)
  · intro c hc; exact Or.inr (dec_digit _ c hc)

theorem readInt_decI (x : Int) (r : List Nat) (hr : NoDigit r) : readInt (decI x ++ r) = (x, r) := by
  unfold decI
  by_cases h : x < 0
  · rw [if_pos h]
    unfold readInt
    rw [if_pos (by rfl)]
    show (-(readDec (digits (dec x.natAbs ++ r)) : Int), afterDigits (dec x.natAbs ++ r)) = _
    rw [digits_run _ _ (dec_digit _) hr, afterDigits_run _ _ (dec_digit _) hr, readDec_dec]
    congr 1; omega
  · rw [if_neg h]
    obtain ⟨c, u, hd, hc⟩ := dec_head x.natAbs
    unfold readInt
    rw [if_neg (by rw [hd]; simp; omega), digits_run _ _ (dec_digit _) hr, afterDigits_run _ _ (dec_digit _) hr, readDec_dec]
    congr 1; omega

/-! ### Hexadecimal -/

theorem hexVal_char (n : Nat) (h : n < 16) : Quote.hexDigitVal (Quote.hexChar n) = n := by
  unfold Quote.hexDigitVal Quote.hexChar
  by_cases h1 : n < 10
  · rw [if_pos h1, if_pos (by omega)]; omega
  · rw [if_neg h1, if_neg (by omega), if_neg (by omega)]; omega

theorem readHex_snoc (l : List Nat) (c : Nat) : readHex (l ++ [c]) = readHex l * 16 + Quote.hexDigitVal c := by
  simp [readHex, List.foldl_append]

theorem readHex_hex (n : Nat) : readHex (hex n) = n := by
  induction n using Nat.strongRecOn with
  | ind n ih =>
    unfold hex
    split
    · rename_i h
      show 0 * 16 + Quote.hexDigitVal (Quote.hexChar n) = n
      rw [hexVal_char n h]; omega
    · rw [readHex_snoc, ih (n / 16) (by omega), hexVal_char _ (by omega)]; omega

theorem readHex_zeros (k : Nat) (l : List Nat) : readHex (List.replicate k 48 ++ l) = readHex l := by
  unfold readHex
  rw [List.foldl_append]
  congr 1
  induction k with
  | zero => rfl
  | succ k ih => rw [List.replicate_succ', List.foldl_append, ih]; rfl

theorem readHex_hexPad (w n : Nat) : readHex (hexPad w n) = n := by
  unfold hexPad; rw [readHex_zeros, readHex_hex]

/-- a digit or a letter from a to f -/
def HexCh (c : Nat) : Prop := (48 ≤ c ∧ c ≤ 57) ∨ (97 ≤ c ∧ c ≤ 102)

theorem hexChar_ch (n : Nat) (h : n < 16) : HexCh (Quote.hexChar n) := by
  unfold Quote.hexChar HexCh
  by_cases h1 : n < 10
  · rw [if_pos h1]; omega
  · rw [if_neg h1]; omega

theorem hex_chars (n : Nat) : ∀ c ∈ hex n, HexCh c := by
  induction n using Nat.strongRecOn with
  | ind n ih =>
    unfold hex
    split
    · rename_i h
      intro c hc
      rw [List.mem_singleton.mp hc]; exact hexChar_ch n h
    · intro c hc
      rcases List.mem_append.mp hc with h | h
      · exact ih (n / 16) (by omega) c h
      · rw [List.mem_singleton.mp h]; exact hexChar_ch _ (by omega)

theorem hex_ne_nil (n : Nat) : hex n ≠ [] := by
  unfold hex; split <;> simp

theorem hexPad_chars (w n : Nat) : ∀ c ∈ hexPad w n, HexCh c := by
  intro c hc
  rcases List.mem_append.mp hc with h | h
  · rw [List.eq_of_mem_replicate h]; exact Or.inl ⟨by omega, by omega⟩
  · exact hex_chars n c h

theorem hexPad_ne_nil (w n : Nat) : hexPad w n ≠ [] := by
  unfold hexPad; simp [hex_ne_nil]

/-! ### Names -/

theorem plainLoop_style (a b : Quote.Style) (h1 : a.term = b.term) (h2 : a.omit0 = b.omit0) (h3 : a.x = b.x) (esc l : List Nat) :
    Quote.plainLoop a esc l = Quote.plainLoop b esc l := by
  induction l with
  | nil => rfl
  | cons c t ih => unfold Quote.plainLoop; rw [h1, h2, h3, ih]

theorem hexLoop_style (a b : Quote.Style) (h1 : a.term = b.term) (l : List Nat) : Quote.hexLoop a l = Quote.hexLoop b l := by
  induction l with
  | nil => rfl
  | cons c t ih => unfold Quote.hexLoop; rw [h1, ih]

theorem needHex_style (a b : Quote.Style) (h1 : a.term = b.term) (l : List Nat) : Quote.needHex a l = Quote.needHex b l := by
  induction l with
  | nil => rfl
  | cons c t ih => unfold Quote.needHex; rw [h1, ih]

/-- the text of a name, without brackets -/
def body (x : Quote.XStyle) (l : List Nat) : List Nat :=
  (Quote.stringQuote l 0 ⟨false, true, false, false, false, x⟩ [60, 62]).1

theorem body_quoted (x : Quote.XStyle) (l : List Nat) :
    34 :: body x l ++ [34] = (Quote.stringQuote l 0 ⟨false, false, false, false, false, x⟩ [60, 62]).1 := by
  unfold body Quote.stringQuote Quote.useHex
  simp only [needHex_style ⟨false, true, false, false, false, x⟩ ⟨false, false, false, false, false, x⟩ rfl,
    hexLoop_style ⟨false, true, false, false, false, x⟩ ⟨false, false, false, false, false, x⟩ rfl,
    plainLoop_style ⟨false, true, false, false, false, x⟩ ⟨false, false, false, false, false, x⟩ rfl rfl rfl]
  simp

theorem body_decode (x : Quote.XStyle) (l : List Nat) (h : OkComm l) :
    Quote.decodeLit false (34 :: body x l ++ [34]) = some (l, []) := by
  rw [body_quoted, Quote.quote_roundtrip false l 0 _ _ (fun c hc => (h c hc).2) rfl rfl (by simp), Quote.shown_all _ _ _ rfl rfl]

theorem hexChar_ne (n : Nat) (h : n < 16) : Quote.hexChar n ≠ 62 := by
  unfold Quote.hexChar; split <;> omega

theorem byteHex_ne (c : Nat) (h : c < 256) : ∀ d ∈ Quote.byteHex c, d ≠ 62 := by
  intro d hd
  simp only [Quote.byteHex, List.mem_cons, List.not_mem_nil, or_false] at hd
  rcases hd with rfl | rfl
  · exact hexChar_ne _ (by omega)
  · exact hexChar_ne _ (by omega)

theorem byteOct_ne (c : Nat) (b : Bool) (h : c < 256) : ∀ d ∈ Quote.byteOct c b, d ≠ 62 := by
  intro d hd
  unfold Quote.byteOct at hd
  split at hd
  · simp at hd; omega
  · split at hd
    · split at hd <;> simp at hd <;> omega
    · simp at hd; omega

theorem escOne_ne (x : Quote.XStyle) (c : Nat) (t : List Nat) (h : c < 256) : ∀ d ∈ Quote.escOne x [60, 62] c t, d ≠ 62 := by
  intro d hd
  unfold Quote.escOne at hd
  split at hd
  · simp at hd; omega
  repeat (split at hd; · simp at hd; omega)
  split at hd
  · rename_i h1
    simp at h1 hd
    rw [hd]; exact h1.2.2
  · split at hd
    · rcases List.mem_cons.mp hd with h2 | h2
      · omega
      · rcases List.mem_cons.mp h2 with h3 | h3
        · omega
        · exact byteHex_ne c h d h3
    · rcases List.mem_cons.mp hd with h2 | h2
      · omega
      · exact byteOct_ne c _ h d h2

theorem plainLoop_ne (s : Quote.Style) (l : List Nat) (h : ∀ c ∈ l, c < 256) : ∀ d ∈ (Quote.plainLoop s [60, 62] l).1, d ≠ 62 := by
  induction l with
  | nil => intro d hd; cases hd
  | cons c t ih =>
    intro d hd
    unfold Quote.plainLoop at hd
    split at hd
    · cases hd
    · split at hd
      · cases hd
      · rcases List.mem_append.mp hd with h2 | h2
        · exact escOne_ne s.x c t (h c (by simp)) d h2
        · exact ih (fun c hc => h c (by simp [hc])) d h2

theorem hexLoop_ne (s : Quote.Style) (l : List Nat) (h : ∀ c ∈ l, c < 256) : ∀ d ∈ (Quote.hexLoop s l).1, d ≠ 62 := by
  induction l with
  | nil => intro d hd; cases hd
  | cons c t ih =>
    intro d hd
    unfold Quote.hexLoop at hd
    split at hd
    · cases hd
    · rcases List.mem_cons.mp hd with h2 | h2
      · omega
      · rcases List.mem_cons.mp h2 with h3 | h3
        · omega
        · rcases List.mem_append.mp h3 with h4 | h4
          · exact byteHex_ne c (h c (by simp)) d h4
          · exact ih (fun c hc => h c (by simp [hc])) d h4

theorem body_ne (x : Quote.XStyle) (l : List Nat) (h : OkComm l) : ∀ d ∈ body x l, d ≠ 62 := by
  intro d hd
  unfold body Quote.stringQuote at hd
  simp only [Bool.false_eq_true, if_false, if_true, List.nil_append, List.append_nil] at hd
  split at hd
  · exact hexLoop_ne _ l (fun c hc => (h c hc).2) d hd
  · exact plainLoop_ne _ l (fun c hc => (h c hc).2) d hd

theorem readComm_some (x : Quote.XStyle) (l r : List Nat) (h : OkComm l) (hl : l ≠ []) : readComm (commText x l ++ r) = (l, r) := by
  have ht : commText x l ++ r = 60 :: (body x l ++ 62 :: r) := by
    unfold commText body; rw [if_neg hl]; simp
  rw [ht]
  unfold readComm
  rw [if_pos (by rfl), List.tail_cons]
  have h1 : upTo 62 (body x l ++ 62 :: r) = body x l :=
    takeWhile_run _ _ _ (fun c hc => by simp [body_ne x l h c hc]) (fun c hc => by cases hc; rfl)
  have h2 : from_ 62 (body x l ++ 62 :: r) = 62 :: r :=
    dropWhile_run _ _ _ (fun c hc => by simp [body_ne x l h c hc]) (fun c hc => by cases hc; rfl)
  rw [h1, h2, body_decode x l h]; rfl

theorem readComm_none (r : List Nat) (hr : r.head? ≠ some 60) : readComm r = ([], r) := by
  unfold readComm; rw [if_neg hr]

/-! ### Parts -/

theorem parts_eq (p : Prec) (hp : OkPrec p) (nsec : Int) (h : 0 ≤ nsec ∧ nsec < 1000000000) :
    (nsec / p.scale).toNat = parts p nsec ∧ parts p nsec < 10 ^ p.width := by
  unfold OkPrec at hp
  unfold parts
  obtain ⟨n, rfl⟩ := Int.eq_ofNat_of_zero_le h.1
  have h2 : n < 1000000000 := by omega
  have e1 : ((n : Int) / p.scale).toNat = n / p.scale := by
    rw [← Int.natCast_ediv]; exact Int.toNat_natCast _
  have e2 : ((n : Int) * 10 ^ p.width / 1000000000).toNat = n * 10 ^ p.width / 1000000000 := by
    have h10 : ((10 : Int) ^ p.width) = ((10 ^ p.width : Nat) : Int) := by rw [Int.natCast_pow]; rfl
    rw [h10, ← Int.natCast_mul, show (1000000000 : Int) = ((1000000000 : Nat) : Int) from rfl, ← Int.natCast_ediv]
    exact Int.toNat_natCast _
  have hpos : 0 < 10 ^ p.width := Nat.pow_pos (by omega)
  rw [e1, e2, ← hp, Nat.mul_div_mul_right _ _ hpos]
  refine ⟨rfl, ?_⟩
  have hs : 0 < p.scale := by
    rcases Nat.eq_zero_or_pos p.scale with h0 | h0
    · rw [h0] at hp; omega
    · exact h0
  rw [Nat.div_lt_iff_lt_mul hs, Nat.mul_comm, hp]
  exact h2

theorem readFrac_text (p : Prec) (hp : OkPrec p) (nsec : Int) (h : 0 ≤ nsec ∧ nsec < 1000000000) (r : List Nat) (hr : NoDigit r) :
    readFrac p (fracText p nsec ++ r) = (parts p nsec, r) := by
  have he := parts_eq p hp nsec h
  unfold readFrac fracText
  by_cases hw : p.width ≠ 0
  · rw [if_pos hw, if_pos hw, he.1]
    show (readDec (digits (decPad p.width (parts p nsec) ++ r)), afterDigits (decPad p.width (parts p nsec) ++ r)) = _
    rw [digits_run _ _ (decPad_digit _ _) hr, afterDigits_run _ _ (decPad_digit _ _) hr, readDec_decPad]
  · rw [if_neg hw, if_neg hw]
    have : parts p nsec = 0 := by
      have h2 := he.2
      have hw0 : p.width = 0 := by omega
      rw [hw0] at h2
      simpa using h2
    rw [this]; rfl

theorem fracText_head (p : Prec) (nsec : Int) (r : List Nat) :
    (fracText p nsec ++ r).head? = some 46 ∨ fracText p nsec = [] := by
  unfold fracText
  split
  · exact Or.inl rfl
  · exact Or.inr rfl

end Strace.Lead
