import Verif.Cli.Inject
import Mathlib.Data.List.Forall2
import Mathlib.Data.List.Nodup
/-!
# C71: the data of `poke_enter=` and `poke_exit=`
-/
namespace Strace.Cli

open Strace.Filter (codes)

/-! ### Specification -/

/-- the texts between the characters `d` -/
def piecesBy (d : Nat) : List Nat → List (List Nat)
  | [] => [[]]
  | c :: t => if c = d then [] :: piecesBy d t else
    match piecesBy d t with
    | [] => [[c]]
    | p :: ps => (c :: p) :: ps

/-- the non-empty texts between the characters `d` -/
def tokensBy (d : Nat) (s : List Nat) : List (List Nat) := (piecesBy d s).filter (fun p => p ≠ [])

/-- `c` is a hexadecimal digit of value `x` -/
def HexDigit (c x : Nat) : Prop :=
  (48 ≤ c ∧ c ≤ 57 ∧ x = c - 48) ∨ (97 ≤ c ∧ c ≤ 102 ∧ x = c - 87) ∨ (65 ≤ c ∧ c ≤ 70 ∧ x = c - 55)

/-- a text of two hexadecimal digits for each byte -/
inductive HexText : List Nat → List Nat → Prop
  | nil : HexText [] []
  | byte {a b x y t bs} : HexDigit a x → HexDigit b y → HexText t bs → HexText (a :: b :: t) ((16 * x + y) :: bs)

/-- "@argN=" -/
def argPrefix (n : Nat) : List Nat := [64, 97, 114, 103, 48 + n, 61]

/-- the text of one payload: "@argN=" with N from 1 to 7, and 1 to 1024 bytes -/
def PayloadText (t : List Nat) (p : Nat × List Nat) : Prop :=
  1 ≤ p.1 ∧ p.1 ≤ 7 ∧ ∃ h, t = argPrefix p.1 ++ h ∧ HexText h p.2 ∧ 1 ≤ p.2.length ∧ p.2.length ≤ 1024

/-- what every accepted payload has: "@argN=" with N from 1 to 7, and an even number of characters, from 2 to 2048, two
for each byte -/
def PayloadShape (t : List Nat) (p : Nat × List Nat) : Prop :=
  1 ≤ p.1 ∧ p.1 ≤ 7 ∧ ∃ h, t = argPrefix p.1 ++ h ∧ h.length = 2 * p.2.length ∧ 1 ≤ p.2.length ∧ p.2.length ≤ 1024 ∧
    ((∀ c ∈ h, ∃ x, HexDigit c x) → HexText h p.2)

/-! ### Lemmas -/

theorem piecesBy_eq (d : Nat) (s : List Nat) : piecesBy d s = s.takeWhile (· != d) ::
    (match s.dropWhile (· != d) with
     | [] => []
     | _ :: r => piecesBy d r) := by
  induction s with
  | nil => rfl
  | cons c t ih =>
    by_cases hc : c = d
    · subst hc; simp [piecesBy]
    · have hb : (c != d) = true := by simpa using hc
      rw [piecesBy, if_neg hc, ih, List.takeWhile_cons, List.dropWhile_cons]
      simp [hb]

theorem tokensBy_strtok (d : Nat) (s : List Nat) : tokensBy d s = match strtokBy d s with
    | none => []
    | some (t, r) => t :: tokensBy d r := by
  induction s with
  | nil => rfl
  | cons c t ih =>
    by_cases hc : c = d
    · subst hc
      have h1 : tokensBy c (c :: t) = tokensBy c t := by simp [tokensBy, piecesBy]
      have h2 : strtokBy c (c :: t) = strtokBy c t := by simp [strtokBy, List.dropWhile_cons]
      rw [h1, h2, ih]
    · have hb : (c != d) = true := by simpa using hc
      have hb' : (c == d) = false := by simpa using hc
      have h2 : strtokBy d (c :: t) = some ((c :: t).takeWhile (· != d),
          ((c :: t).dropWhile (· != d)).drop 1) := by
        unfold strtokBy
        rw [List.dropWhile_cons, hb']; rfl
      rw [h2]
      show (piecesBy d (c :: t)).filter _ = _
      rw [piecesBy_eq]
      have h3 : (c :: t).takeWhile (· != d) = c :: t.takeWhile (· != d) := by
        rw [List.takeWhile_cons, hb]; rfl
      rw [h3, List.filter_cons]
      have : decide (c :: t.takeWhile (· != d) ≠ []) = true := by simp
      simp only [this, if_true]
      congr 1
      generalize List.dropWhile (· != d) (c :: t) = e
      cases e with
      | nil => rfl
      | cons _ r => rfl

theorem strip_iff (p : String) (s v : List Nat) : strip p s = some v ↔ s = codes p ++ v := by
  unfold strip
  constructor
  · intro h
    split at h
    · rename_i ht
      injection h with h
      rw [← h]
      conv => lhs; rw [← List.take_append_drop (codes p).length s, ht]
    · cases h
  · rintro rfl
    simp

theorem hexDigit_iff (c : Nat) : (∃ x, HexDigit c x) ↔ digitVal c < 16 := by
  unfold HexDigit digitVal
  constructor
  · rintro ⟨x, h⟩; split <;> (try split) <;> (try split) <;> omega
  · intro h
    split at h
    · exact ⟨_, Or.inl ⟨by omega, by omega, rfl⟩⟩
    split at h
    · exact ⟨_, Or.inr (Or.inl ⟨by omega, by omega, rfl⟩)⟩
    split at h
    · exact ⟨_, Or.inr (Or.inr ⟨by omega, by omega, rfl⟩)⟩
    · omega

theorem hexDigit_val {c x : Nat} (h : HexDigit c x) : digitVal c = x ∧ x < 16 := by
  unfold HexDigit at h
  unfold digitVal
  split <;> (try split) <;> (try split) <;> omega

theorem sscanf_pair {a b x y : Nat} (ha : HexDigit a x) (hb : HexDigit b y) (t : List Nat) :
    sscanf2hhx (a :: b :: t) = some (16 * x + y) := by
  obtain ⟨ha1, ha2⟩ := hexDigit_val ha
  obtain ⟨hb1, hb2⟩ := hexDigit_val hb
  have hsp : StringToUint.isSpace a = false := by
    rw [Bool.eq_false_iff]; intro hs
    simp only [StringToUint.isSpace, Bool.or_eq_true, Bool.and_eq_true, beq_iff_eq, decide_eq_true_eq] at hs
    unfold HexDigit at ha; omega
  have h43 : a ≠ 43 := by unfold HexDigit at ha; omega
  have h45 : a ≠ 45 := by unfold HexDigit at ha; omega
  have hbx : ¬ (b = 120 ∨ b = 88) := by unfold HexDigit at hb; omega
  have hh : scanHex 2 0 (a :: b :: t) false = (16 * x + y, true) := by
    simp only [scanHex, ha1, hb1, if_pos ha2, if_pos hb2, Prod.mk.injEq, and_true]
    omega
  have hbody : scanBody 2 (a :: b :: t) = (16 * x + y, true) := by
    unfold scanBody
    split
    · rename_i x' t' heq
      injection heq with e1 e2
      injection e2 with e2 e3
      subst e2
      rw [if_neg (by intro hc; exact hbx hc.2), ← hh]
    · exact hh
  unfold sscanf2hhx
  simp only [StringToUint.skipSpace, hsp, Bool.false_eq_true, if_false]
  split
  · rename_i heq; injection heq with e1 _; exact absurd e1 h43
  · rename_i heq; injection heq with e1 _; exact absurd e1 h45
  · rw [hbody]; simp; omega

theorem pokeBytes_hex {h bs : List Nat} (ht : HexText h bs) (r : List Nat) : pokeBytes bs.length (h ++ r) = some bs := by
  induction ht with
  | nil => rfl
  | byte ha hb _ ih =>
    simp only [List.length_cons, pokeBytes, List.cons_append]
    rw [sscanf_pair ha hb]
    simp only [List.drop_succ_cons, List.drop_zero]
    rw [ih]; rfl

theorem hexText_length {h bs : List Nat} (ht : HexText h bs) : h.length = 2 * bs.length := by
  induction ht with
  | nil => rfl
  | byte _ _ _ ih => simp only [List.length_cons, ih]; omega

theorem pokeBytes_length {n : Nat} {v bs : List Nat} (h : pokeBytes n v = some bs) : bs.length = n := by
  induction n generalizing v bs with
  | zero => simp [pokeBytes] at h; simp [← h]
  | succ n ih =>
    unfold pokeBytes at h
    split at h
    · cases h
    · rw [Option.map_eq_some_iff] at h
      obtain ⟨l, h1, rfl⟩ := h
      simp [ih h1]

theorem hexText_of_all (h : List Nat) (n : Nat) (hl : h.length = 2 * n) (hx : ∀ c ∈ h, ∃ x, HexDigit c x) : ∃ bs, HexText h bs ∧ bs.length = n := by
  induction n generalizing h with
  | zero => have : h = [] := List.length_eq_zero_iff.1 (by omega); subst this; exact ⟨[], .nil, rfl⟩
  | succ n ih =>
    match h, hl, hx with
    | a :: b :: t, hl, hx =>
      obtain ⟨x, hx1⟩ := hx a (by simp)
      obtain ⟨y, hy1⟩ := hx b (by simp)
      obtain ⟨bs, h1, h2⟩ := ih t (by simp at hl; omega) (fun c hc => hx c (by simp [hc]))
      exact ⟨_, .byte hx1 hy1 h1, by simp [h2]⟩
    | [a], hl, _ => simp at hl; omega
    | [], hl, _ => simp at hl

theorem codes_arg : codes "@arg" = [64, 97, 114, 103] := by decide

theorem pokeItem_text {t : List Nat} {p : Nat × List Nat} (h : PayloadText t p) : pokeItem t = some p := by
  obtain ⟨h1, h2, v, rfl, h3, h4, h5⟩ := h
  have hs : strip "@arg" (argPrefix p.1 ++ v) = some ((48 + p.1) :: 61 :: v) := by
    rw [strip_iff, codes_arg]; rfl
  have hl := hexText_length h3
  unfold pokeItem
  rw [hs]
  simp only
  rw [if_pos (by omega), if_neg (by simp), if_neg (by omega)]
  have : v.length / 2 = p.2.length := by omega
  have hb := pokeBytes_hex h3 []
  rw [List.append_nil] at hb
  rw [this, hb]
  simp

theorem pokeItem_shape {t : List Nat} {p : Nat × List Nat} (h : pokeItem t = some p) : PayloadShape t p := by
  unfold pokeItem at h
  split at h
  · cases h
  · rename_i val hs
    rw [strip_iff, codes_arg] at hs
    split at h
    · rename_i d e v
      split at h
      · rename_i hd
        split at h
        · cases h
        · rename_i he
          split at h
          · cases h
          · rename_i hl
            rw [Option.map_eq_some_iff] at h
            obtain ⟨bs, hb, rfl⟩ := h
            have hlen := pokeBytes_length hb
            have he' : e = 61 := by simpa using he
            refine ⟨by simp only; omega, by simp only; omega, v, ?_, ?_, ?_, ?_, ?_⟩
            · rw [hs, he', argPrefix]; simp only; rw [show 48 + (d - 48) = d by omega]; rfl
            · simp only; omega
            · simp only; omega
            · simp only; omega
            · intro hx
              simp only
              obtain ⟨bs', h1, h2⟩ := hexText_of_all v (v.length / 2) (by omega) hx
              have := pokeBytes_hex h1 []
              rw [List.append_nil, h2, hb] at this
              injection this with this
              rw [this]; exact h1
      · cases h
    · cases h

/-- the loop over the tokens, as a function of the list of tokens -/
def pokeList : List (List Nat) → List (Nat × List Nat) → Option (List (Nat × List Nat))
  | [], got => some got
  | t :: ts, got =>
    match pokeItem t with
    | none => none
    | some p => if got.any (fun q => q.1 == p.1) then none else pokeList ts (got ++ [p])

theorem pokeLoop_eq (s : List Nat) (got : List (Nat × List Nat)) : pokeLoop s got = pokeList (tokensBy 44 s) got := by
  induction hk : s.length using Nat.strongRecOn generalizing s got with
  | ind k ih =>
    rw [pokeLoop, tokensBy_strtok]
    split
    · rename_i h; rw [h]; rfl
    · rename_i tok rest h
      rw [h]
      simp only [pokeList]
      cases pokeItem tok with
      | none => rfl
      | some p =>
        simp only
        split
        · rfl
        · exact ih rest.length (by rw [← hk]; exact strtokBy_length h) rest _ rfl

theorem pokeList_iff (ts : List (List Nat)) (got ps : List (Nat × List Nat)) (hg : (got.map (·.1)).Nodup) :
    pokeList ts got = some ps ↔
      ∃ qs, List.Forall₂ (fun t p => pokeItem t = some p) ts qs ∧ ps = got ++ qs ∧ (ps.map (·.1)).Nodup := by
  induction ts generalizing got with
  | nil =>
    simp only [pokeList]
    constructor
    · intro h; injection h with h; exact ⟨[], .nil, by simp [h], h ▸ hg⟩
    · rintro ⟨qs, h, rfl, _⟩; cases h; simp
  | cons t ts ih =>
    simp only [pokeList]
    cases hp : pokeItem t with
    | none =>
      simp only
      constructor
      · intro h; cases h
      · rintro ⟨qs, h, _⟩; cases h with | cons h1 _ => rw [hp] at h1; cases h1
    | some p =>
      simp only
      by_cases ha : got.any (fun q => q.1 == p.1) = true
      · rw [if_pos ha]
        constructor
        · intro h; cases h
        · rintro ⟨qs, h, rfl, hn⟩
          exfalso
          cases h with
          | cons h1 h2 =>
            rw [hp] at h1; injection h1 with h1; subst h1
            rw [List.any_eq_true] at ha
            obtain ⟨q, hq, he⟩ := ha
            simp only [beq_iff_eq] at he
            rw [List.map_append, List.nodup_append] at hn
            exact hn.2.2 q.1 (List.mem_map_of_mem hq) p.1 (by simp) he
      · rw [if_neg ha]
        have hg' : ((got ++ [p]).map (·.1)).Nodup := by
          rw [List.map_append, List.nodup_append]
          refine ⟨hg, by simp, ?_⟩
          intro a h1 b h2 e
          obtain ⟨q, hq, rfl⟩ := List.mem_map.1 h1
          simp only [List.map_cons, List.map_nil, List.mem_singleton] at h2
          exact ha (List.any_eq_true.2 ⟨q, hq, by rw [e, h2]; simp⟩)
        rw [ih _ hg']
        constructor
        · rintro ⟨qs, h, rfl, hn⟩
          exact ⟨p :: qs, .cons hp h, by simp, hn⟩
        · rintro ⟨qs, h, rfl, hn⟩
          cases h with
          | cons h1 h2 =>
            rw [hp] at h1; injection h1 with h1; subst h1
            exact ⟨_, h2, by simp, hn⟩

/-! ### C71 -/

/-- **C71.** Every well-formed text is accepted, and means the payloads it spells, in order. -/
theorem poke_reads (t : List Nat) (ps : List (Nat × List Nat)) (h0 : t ≠ [])
    (h : List.Forall₂ PayloadText (tokensBy 44 t) ps) (hn : (ps.map (·.1)).Nodup) : pokeValue t = some ps := by
  unfold pokeValue
  rw [if_neg h0, pokeLoop_eq, pokeList_iff _ _ _ (by simp)]
  exact ⟨ps, h.imp fun _ _ => pokeItem_text, rfl, hn⟩

/-- **C71, partial.** Whatever is accepted has the documented shape, never two payloads for one argument, and where its
data consists of hexadecimal digits they are what it spells.  (Missing: other characters are not always refused, see
`poke_loose`.) -/
theorem poke_shape_partial (t : List Nat) (ps : List (Nat × List Nat)) (h : pokeValue t = some ps) :
    t ≠ [] ∧ List.Forall₂ PayloadShape (tokensBy 44 t) ps ∧ (ps.map (·.1)).Nodup := by
  unfold pokeValue at h
  split at h
  · cases h
  · rename_i h0
    rw [pokeLoop_eq, pokeList_iff _ _ _ (by simp)] at h
    obtain ⟨qs, h1, h2, h3⟩ := h
    rw [List.nil_append] at h2
    subst h2
    exact ⟨h0, h1.imp fun _ _ => pokeItem_shape, h3⟩

/-- Texts that are not hexadecimal bytes are taken as data all the same: "@arg1=1g" as the byte 01, "@arg1=-1" as ff,
"@arg1= 1 2" as 01 02, and "," as no payload at all. -/
theorem poke_loose :
    pokeValue (codes "@arg1=1g") = some [(1, [0x01])] ∧ pokeValue (codes "@arg1=-1") = some [(1, [0xff])] ∧
    pokeValue (codes "@arg1= 1 2") = some [(1, [0x01, 0x02])] ∧ pokeValue (codes ",") = some [] ∧
    ¬ (∃ x, HexDigit 103 x) ∧ ¬ (∃ x, HexDigit 45 x) := by
  refine ⟨by decide +kernel, by decide +kernel, by decide +kernel, by decide +kernel, ?_, ?_⟩ <;>
    · rintro ⟨x, h⟩; unfold HexDigit at h; omega

example : pokeValue (codes "@arg2=0aFF,@arg1=00") = some [(2, [0x0a, 0xff]), (1, [0])] := by decide +kernel
example : List.Forall₂ PayloadText (tokensBy 44 (codes "@arg2=0a,@arg1=00")) [(2, [0x0a]), (1, [0])] :=
  .cons ⟨by decide, by decide, [48, 97], by decide, .byte (x := 0) (y := 10) (.inl (by decide)) (.inr (.inl (by decide))) .nil, by decide, by decide⟩
    (.cons ⟨by decide, by decide, [48, 48], by decide, .byte (x := 0) (y := 0) (.inl (by decide)) (.inl (by decide)) .nil, by decide, by decide⟩ .nil)
example : pokeValue (codes "@arg8=00") = none := by decide +kernel
example : pokeValue (codes "@arg1=0") = none := by decide +kernel
example : pokeValue (codes "@arg1=00,@arg1=01") = none := by decide +kernel

end Strace.Cli
