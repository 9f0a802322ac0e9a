import Verif.Hw.Spec
/-!
# Hardware addresses are shown as they are (C116)
-/

namespace Strace.Hw

/-! ## The text -/

/-- the pieces of the bytes from index `i` on -/
def text : Nat → List Nat → List Char
  | _, [] => []
  | i, b :: bs => piece i b ++ text (i + 1) bs

theorem digit_val : ∀ n : Fin 16, digitVal (digit n) = some n.val ∧ digit n ≠ '\x00' := by decide

theorem piece_zero (b : Nat) : piece 0 b = [digit (b / 16), digit (b % 16)] := by simp [piece]

theorem piece_succ (i b : Nat) : piece (i + 1) b = [':', digit (b / 16), digit (b % 16)] := by simp [piece]

theorem digits (b : Nat) (h : b < 256) :
    digitVal (digit (b / 16)) = some (b / 16) ∧ digitVal (digit (b % 16)) = some (b % 16) ∧
    digit (b / 16) ≠ '\x00' ∧ digit (b % 16) ≠ '\x00' := by
  have h1 := digit_val ⟨b / 16, by omega⟩
  have h2 := digit_val ⟨b % 16, by omega⟩
  exact ⟨h1.1, h2.1, h1.2, h2.2⟩

theorem read_cons (bs : List Nat) : ∀ (i b : Nat), Bytes (b :: bs) →
    readAddr (digit (b / 16) :: digit (b % 16) :: text (i + 1) bs) = some (b :: bs) := by
  induction bs with
  | nil =>
    intro i b hb
    obtain ⟨h1, h2, -, -⟩ := digits b (hb b (by simp))
    simp only [text, readAddr, h1, h2]
    have : b / 16 * 16 + b % 16 = b := by omega
    rw [this]
  | cons c cs ih =>
    intro i b hb
    obtain ⟨h1, h2, -, -⟩ := digits b (hb b (by simp))
    have hc : Bytes (c :: cs) := fun x hx => hb x (List.mem_cons_of_mem _ hx)
    have := ih (i + 1) c hc
    simp only [text, piece_succ, List.cons_append, List.nil_append]
    simp only [readAddr, h1, h2, this]
    have : b / 16 * 16 + b % 16 = b := by omega
    rw [if_pos trivial, this]

theorem read_text (bs : List Nat) (h : Bytes bs) : readAddr (text 0 bs) = some bs := by
  cases bs with
  | nil => rfl
  | cons b bs => simp only [text, piece_zero, List.cons_append, List.nil_append]; exact read_cons bs 0 b h

theorem text_nul (bs : List Nat) : ∀ i, Bytes bs → ∀ c ∈ text i bs, c ≠ '\x00' := by
  induction bs with
  | nil => intro i _ c hc; simp [text] at hc
  | cons b bs ih =>
    intro i hb c hc
    obtain ⟨-, -, h3, h4⟩ := digits b (hb b (by simp))
    simp only [text, List.mem_append] at hc
    rcases hc with hc | hc
    · simp only [piece, List.mem_append, List.mem_cons, List.not_mem_nil, or_false] at hc
      rcases hc with hc | hc | hc
      · split at hc
        · simp at hc; subst hc; decide
        · simp at hc
      · rw [hc]; exact h3
      · rw [hc]; exact h4
    · exact ih (i + 1) (fun x hx => hb x (List.mem_cons_of_mem _ hx)) c hc

/-! ## The buffer -/

theorem takeWhile_stop {α : Type} (f : α → Bool) (l : List α) (x : α) (r : List α) (h : ∀ a ∈ l, f a = true)
    (hx : f x = false) : (l ++ x :: r).takeWhile f = l := by
  induction l with
  | nil => simp [hx]
  | cons a l ih => simp [h a (by simp), ih (fun b hb => h b (List.mem_cons_of_mem _ hb))]

theorem cstr_text (bs : List Nat) (r : List Char) (h : Bytes bs) : cstr (text 0 bs ++ '\x00' :: r) = text 0 bs := by
  apply takeWhile_stop
  · intro a ha; simpa using text_nul bs 0 h a ha
  · simp

theorem append_ok (t rest s : List Char) (hs : t.length + s.length < 96) :
    append (t ++ rest) t.length s = some (t ++ s ++ '\x00' :: rest.drop (s.length + 1), t.length + s.length) := by
  have : resSize = 96 := rfl
  simp only [append, this]
  rw [if_neg (by omega)]
  congr 2
  rw [List.take_left']
  · rw [List.drop_append]
    have : t.length + s.length + 1 - t.length = s.length + 1 := by omega
    rw [List.drop_eq_nil_of_le (by omega), this]
    simp
  · rfl

theorem loop_ok (addr : List Nat) (k : Nat) : ∀ (i : Nat) (t rest : List Char), (t ++ rest).length = 96 → i + k ≤ addr.length →
    i + k ≤ 32 → t.length = 3 * i - 1 →
    ∃ rest', loop addr k i (t ++ rest, t.length) = some (t ++ text i ((addr.drop i).take k) ++ rest') ∧
      (t ++ text i ((addr.drop i).take k) ++ rest').length = 96 ∧ (k ≠ 0 → ∃ r, rest' = '\x00' :: r) ∧ (k = 0 → rest' = rest) := by
  induction k with
  | zero =>
    intro i t rest hl _ _ _
    exact ⟨rest, by simp [loop, text], by simpa [text] using hl, by simp, by simp⟩
  | succ k ih =>
    intro i t rest hl ha h32 ht
    have hi : i < addr.length := by omega
    have hp : (piece i addr[i]).length = if i = 0 then 2 else 3 := by
      unfold piece; split <;> simp_all
    have hs : t.length + (piece i addr[i]).length < 96 := by rw [hp, ht]; split <;> omega
    have hd : (addr.drop i).take (k + 1) = addr[i] :: (addr.drop (i + 1)).take k := by
      rw [List.drop_eq_getElem_cons hi, List.take_succ_cons]
    have ht' : (t ++ piece i addr[i]).length = 3 * (i + 1) - 1 := by
      rw [List.length_append, hp, ht]; split <;> omega
    have hl' : (t ++ piece i addr[i] ++ '\x00' :: rest.drop ((piece i addr[i]).length + 1)).length = 96 := by
      simp only [List.length_append, List.length_cons, List.length_drop] at hl ⊢
      omega
    obtain ⟨rest', h1, h2, h3, h4⟩ := ih (i + 1) (t ++ piece i addr[i]) ('\x00' :: rest.drop ((piece i addr[i]).length + 1)) hl'
      (by omega) (by omega) ht'
    refine ⟨rest', ?_, ?_, ?_, by omega⟩
    · simp only [loop, List.getElem?_eq_getElem hi]
      rw [append_ok t rest _ hs]
      simp only
      rw [List.length_append] at h1
      rw [h1, hd]
      simp [text]
    · rw [hd]; simpa [text] using h2
    · intro _
      by_cases hk : k = 0
      · exact ⟨_, h4 hk⟩
      · exact h3 hk

/-- the buffer holds the text of these bytes -/
def Holds (res : List Char) (bs : List Nat) : Prop := Bytes bs ∧ res.length = 96 ∧ ∃ r, res = text 0 bs ++ '\x00' :: r

theorem holds_fresh : Holds fresh [] := ⟨by simp [Bytes], by decide, List.replicate 95 '\x00', by decide⟩

theorem holds_cstr {res : List Char} {bs : List Nat} (h : Holds res bs) : cstr res = text 0 bs := by
  obtain ⟨h1, -, r, rfl⟩ := h
  exact cstr_text bs r h1

theorem bytes_take (bs : List Nat) (n : Nat) (h : Bytes bs) : Bytes (bs.take n) := fun b hb => h b (List.mem_of_mem_take hb)

theorem sprint_holds (res : List Char) (bs addr : List Nat) (n : Nat) (h : Holds res bs) (ha : Bytes addr) (hn : n ≤ addr.length)
    (h32 : n ≤ 32) : ∃ r, sprintMac res addr n = some r ∧ Holds r (if n = 0 then bs else addr.take n) := by
  have hm : maxLen = 32 := rfl
  unfold sprintMac
  rw [if_neg (by omega)]
  obtain ⟨hb, hl, -⟩ := id h
  obtain ⟨rest', h1, h2, h3, h4⟩ := loop_ok addr n 0 [] res (by simpa using hl) (by omega) (by omega) (by simp)
  simp only [List.nil_append, List.length_nil, List.drop_zero] at h1 h2
  refine ⟨_, h1, ?_⟩
  by_cases hz : n = 0
  · subst hz
    rw [if_pos rfl, h4 rfl]
    simpa [text] using h
  · rw [if_neg hz]
    obtain ⟨r, rfl⟩ := h3 hz
    exact ⟨bytes_take _ _ ha, h2, r, rfl⟩

/-- the token of the text -/
def tok (st : Style) (s : List Char) : Tok := if st = .verbose then .comment s else .text s

/-- the quoted bytes -/
def quotes (st : Style) (bs : List Nat) : List Tok := if st = .abbrev' then [] else [.quoted bs]

theorem print_ok (st : Style) (res : List Char) (bs addr : List Nat) (size n : Nat) (h : Holds res bs) (ha : Bytes addr)
    (hs : size ≤ addr.length) (hn : n ≤ size) (h32 : size ≤ 32) (hst : st ≠ .raw) :
    ∃ r, printAddr st res addr size n =
        some (quotes st (addr.take size) ++ [tok st (text 0 (if n = 0 then bs else addr.take n))], r) ∧
      Holds r (if n = 0 then bs else addr.take n) := by
  obtain ⟨r, h1, h2⟩ := sprint_holds res bs addr n h ha (by omega) (by omega)
  refine ⟨r, ?_, h2⟩
  have hm : ¬ size > maxLen := by simp only [maxLen]; omega
  simp only [printAddr, hm, or_false, hst, h1, holds_cstr h2, quotes, tok, if_false]
  by_cases hv : st = .abbrev' <;> simp [hv]

theorem print_raw (res : List Char) (addr : List Nat) (size n : Nat) :
    printAddr .raw res addr size n = some ([.quoted (addr.take size)], res) := by
  simp [printAddr]

/-! ## Places -/

/-- the size and the number of bytes formatted -/
def sizes : Place → Nat × Nat
  | .field a => (a.length, a.length)
  | .mreq a n => (min n a.length, min n a.length)
  | .ifr a t => (a.length, cut a.length t)
  | .link p f => (p.length, cut p.length f)
  | .neigh p => (p.length, cut p.length (2 ^ 32 - 1))

theorem sizes_le (p : Place) : (sizes p).2 ≤ (sizes p).1 ∧ (sizes p).1 ≤ p.bytes.length := by
  cases p <;> simp only [sizes, Place.bytes, cut] <;> omega

theorem family_bits (f : Nat) (h : f < 256) : (1024 ||| f).testBit 10 = true ∧ (1024 ||| f) - 1024 = f := by
  have h1 : (1024 ||| f) = 1024 + f := by
    have := Nat.two_pow_add_eq_or_of_lt (i := 10) (b := f) (by omega) 1
    simpa using this.symm
  refine ⟨?_, by omega⟩
  rw [Nat.testBit_or]
  have : Nat.testBit 1024 10 = true := by decide
  rw [this]; rfl

theorem print_at (st : Style) (res : List Char) (p : Place) (h : p.Ok) (h32 : p.bytes.length ≤ 32) :
    printAt st res p = printAddr st res p.bytes (sizes p).1 (sizes p).2 := by
  cases p with
  | field a => rfl
  | mreq a n => rfl
  | ifr a t => rfl
  | link pl f =>
    obtain ⟨hb, hf⟩ := h
    simp only [Place.bytes] at h32
    have h1 := family_bits f hf
    simp only [printAt, nlaHwaddrFamily, nlaHwaddr]
    rw [if_neg (by simp only [maxLen]; omega), if_neg (c := f > 1024) (by omega), h1.1, h1.2]
    rfl
  | neigh pl =>
    simp only [Place.bytes] at h32
    simp only [printAt, nlaHwaddr]
    rw [if_neg (by simp only [maxLen]; omega)]
    rfl

/-- an address too long for a device is shown as a string -/
theorem print_long (st : Style) (res : List Char) (p : Place) (h : p.Ok) (h32 : 32 < p.bytes.length) :
    printAt st res p = some ([.quoted p.bytes], res) := by
  cases p with
  | field a => exact absurd h.2 (by simp only [Place.bytes] at h32; omega)
  | mreq a n => exact absurd h.2 (by simp only [Place.bytes] at h32; omega)
  | ifr a t => exact absurd h.2 (by simp only [Place.bytes] at h32; omega)
  | link pl f =>
    simp only [Place.bytes] at h32
    simp only [printAt, nlaHwaddrFamily, nlaHwaddr, Place.bytes]
    rw [if_pos (by simp only [maxLen]; omega)]
  | neigh pl =>
    simp only [Place.bytes] at h32
    simp only [printAt, nlaHwaddr, Place.bytes]
    rw [if_pos (by simp only [maxLen]; omega)]

theorem bytes_ok (p : Place) (h : p.Ok) : Bytes p.bytes := by
  cases p <;> first | exact h.1 | exact h

/-! ## The table -/

theorem table (t : Nat) : (match lengthOf t with | some n => n | none => 255) = if t < 827 then sizeOf t else 255 := by
  by_cases h : t < 827
  · rw [if_pos h]
    have : ∀ t : Fin 827, (match lengthOf t with | some n => n | none => 255) = sizeOf t := by decide +kernel
    exact this ⟨t, h⟩
  · rw [if_neg h]
    have : lengthOf t = none := by
      unfold lengthOf
      rw [List.find?_eq_none.mpr]
      · rfl
      · have : ∀ x ∈ lengths, x.1 < 827 := by decide
        intro x hx
        have := this x hx
        simp only [beq_iff_eq]; omega
    rw [this]

theorem table_pos (f n : Nat) (h : f < 256) (hl : lengthOf f = some n) : n ≠ 0 := by
  have : ∀ f : Fin 256, lengthOf f ≠ some 0 := by decide +kernel
  intro h0; subst h0
  exact this ⟨f, h⟩ hl

/-- the number of bytes formatted is that of the address, but for links -/
theorem sizes_address (p : Place) (h : p.Ok) (h32 : p.bytes.length ≤ 32) (hl : ∀ pl f, p ≠ .link pl f) :
    (sizes p).2 = p.address.length := by
  cases p with
  | field a => simp [sizes, Place.address, Place.bytes, Place.length]
  | mreq a n =>
    simp only [sizes, Place.address, Place.bytes, Place.length, List.length_take]
    split <;> omega
  | ifr a t =>
    have ht := table t
    have ha := h.2
    simp only [sizes, Place.address, Place.bytes, Place.length, List.length_take, cut, ← ht]
    cases lengthOf t with
    | none => simp only; omega
    | some n => simp only; split <;> omega
  | link pl f => exact absurd rfl (hl pl f)
  | neigh pl =>
    simp only [sizes, Place.address, Place.bytes, Place.length, List.length_take, cut] at h32 ⊢
    rw [if_neg (by decide)]; omega

/-- for links it is what the table has for the address family -/
theorem sizes_link (pl : List Nat) (f : Nat) (h32 : pl.length ≤ 32) : (sizes (.link pl f)).2 =
    match lengthOf f with | some n => min pl.length n | none => pl.length := by
  have ht := table f
  simp only [sizes, cut, ← ht]
  cases lengthOf f with
  | none => simp only; omega
  | some n => rfl

theorem sizes_zero (p : Place) (h : p.Ok) (h32 : p.bytes.length ≤ 32) : (sizes p).2 = 0 ↔ p.address = [] := by
  by_cases hl : ∀ pl f, p ≠ .link pl f
  · rw [sizes_address p h h32 hl]; exact List.length_eq_zero_iff
  · have : ∃ pl f, p = .link pl f := by
      cases p with
      | link pl f => exact ⟨pl, f, rfl⟩
      | _ => exact absurd (fun pl f => by simp) hl
    obtain ⟨pl, f, rfl⟩ := this
    rw [sizes_link pl f h32]
    have ha : (Place.link pl f).address = pl := by simp [Place.address, Place.length, Place.bytes]
    rw [ha]
    cases hlf : lengthOf f with
    | none => exact List.length_eq_zero_iff
    | some n =>
      have := table_pos f n h.2 hlf
      simp only
      rw [← List.length_eq_zero_iff]
      omega

/-! ## Histories -/

theorem after_holds (st : Style) (hst : st ≠ .raw) (ps : List Place) : ∀ (res : List Char) (bs : List Nat), Holds res bs →
    (∀ p ∈ ps, p.Ok) → ∃ r bs', after st ps res = some r ∧ Holds r bs' ∧
      (bs' = [] ↔ bs = [] ∧ ∀ q ∈ ps, ¬ (q.address ≠ [] ∧ q.bytes.length ≤ 32)) := by
  induction ps with
  | nil => intro res bs h _; exact ⟨res, bs, rfl, h, by simp⟩
  | cons p ps ih =>
    intro res bs h hp
    have hp0 := hp p (by simp)
    have hps : ∀ q ∈ ps, q.Ok := fun q hq => hp q (List.mem_cons_of_mem _ hq)
    by_cases h32 : p.bytes.length ≤ 32
    · have hz := sizes_zero p hp0 h32
      have hle := sizes_le p
      obtain ⟨r, h1, h2⟩ := print_ok st res bs p.bytes (sizes p).1 (sizes p).2 h (bytes_ok p hp0) hle.2 hle.1 (by omega) hst
      obtain ⟨r', bs', h3, h4, h5⟩ := ih r _ h2 hps
      refine ⟨r', bs', ?_, h4, ?_⟩
      · simp only [after, print_at st res p hp0 h32, h1, h3]
      · rw [h5, List.forall_mem_cons]
        by_cases hs : (sizes p).2 = 0
        · rw [if_pos hs]
          have := hz.mp hs
          simp [this]
        · rw [if_neg hs]
          have ha : p.address ≠ [] := fun h => hs (hz.mpr h)
          have hne : p.bytes.take (sizes p).2 ≠ [] := by
            intro h
            have := congrArg List.length h
            rw [List.length_take, List.length_nil] at this
            omega
          simp [ha, hne, h32]
    · obtain ⟨r', bs', h3, h4, h5⟩ := ih res bs h hps
      refine ⟨r', bs', ?_, h4, ?_⟩
      · simp only [after, print_long st res p hp0 (by omega), h3]
      · rw [h5, List.forall_mem_cons]
        simp [h32]

/-- whatever has been printed before, an address is printed: the buffer is not overrun and no array is read beyond its end -/
theorem always_printed (st : Style) (before : List Place) (p : Place) (hb : ∀ q ∈ before, q.Ok) (hp : p.Ok) :
    ∃ toks, shown st before p = some toks := by
  by_cases hst : st = .raw
  · subst hst
    have hr : ∀ (ps : List Place) (res : List Char), (∀ q ∈ ps, q.Ok) → after .raw ps res = some res := by
      intro ps
      induction ps with
      | nil => intro res _; rfl
      | cons q qs ih =>
        intro res h
        have hq := h q (by simp)
        by_cases h32 : q.bytes.length ≤ 32
        · simp only [after, print_at .raw res q hq h32, print_raw]
          exact ih res (fun x hx => h x (List.mem_cons_of_mem _ hx))
        · simp only [after, print_long .raw res q hq (by omega)]
          exact ih res (fun x hx => h x (List.mem_cons_of_mem _ hx))
    simp only [shown, hr before fresh hb]
    by_cases h32 : p.bytes.length ≤ 32
    · rw [print_at .raw fresh p hp h32, print_raw]; exact ⟨_, rfl⟩
    · rw [print_long .raw fresh p hp (by omega)]; exact ⟨_, rfl⟩
  · obtain ⟨r, bs, h1, h2, -⟩ := after_holds st hst before fresh [] holds_fresh hb
    simp only [shown, h1]
    by_cases h32 : p.bytes.length ≤ 32
    · have hle := sizes_le p
      obtain ⟨r', h3, -⟩ := print_ok st r bs p.bytes (sizes p).1 (sizes p).2 h2 (bytes_ok p hp) hle.2 hle.1 (by omega) hst
      rw [print_at st r p hp h32, h3]; exact ⟨_, rfl⟩
    · rw [print_long st r p hp (by omega)]; exact ⟨_, rfl⟩

/-- With names and in the verbose style the address can be read from what is shown, whatever has been printed before, except in
two cases: a link's address may be cut, and an address of no bytes may be shown as an earlier one. -/
theorem readable_iff_partial (st : Style) (hst : st ≠ .raw) (before : List Place) (p : Place) (hb : ∀ q ∈ before, q.Ok)
    (hp : p.Ok) (h32 : p.bytes.length ≤ 32) :
    (∃ toks s, shown st before p = some toks ∧ textIn st toks = some s ∧ readAddr s = some p.address) ↔ ¬ Wrong before p := by
  obtain ⟨r, bs, h1, h2, h3⟩ := after_holds st hst before fresh [] holds_fresh hb
  have hle := sizes_le p
  obtain ⟨r', h4, -⟩ := print_ok st r bs p.bytes (sizes p).1 (sizes p).2 h2 (bytes_ok p hp) hle.2 hle.1 (by omega) hst
  have hz := sizes_zero p hp h32
  have hsh : ∃ toks, shown st before p = some toks ∧
      textIn st toks = some (text 0 (if (sizes p).2 = 0 then bs else p.bytes.take (sizes p).2)) := by
    refine ⟨quotes st (p.bytes.take (sizes p).1) ++ [tok st (text 0 (if (sizes p).2 = 0 then bs else p.bytes.take (sizes p).2))],
      ?_, ?_⟩
    · simp only [shown, h1, print_at st r p hp h32, h4, Option.map_some]
    · cases st
      · rfl
      · rfl
      · exact absurd rfl hst
  obtain ⟨toks, ht1, ht2⟩ := hsh
  have hby : Bytes (if (sizes p).2 = 0 then bs else p.bytes.take (sizes p).2) := by
    split
    · exact h2.1
    · exact bytes_take _ _ (bytes_ok p hp)
  have hiff : (∃ toks s, shown st before p = some toks ∧ textIn st toks = some s ∧ readAddr s = some p.address) ↔
      (if (sizes p).2 = 0 then bs else p.bytes.take (sizes p).2) = p.address := by
    constructor
    · rintro ⟨toks', s, a1, a2, a3⟩
      rw [ht1] at a1
      cases a1
      rw [ht2] at a2
      cases a2
      rw [read_text _ hby] at a3
      exact Option.some.inj a3
    · intro h
      exact ⟨toks, _, ht1, ht2, by rw [read_text _ hby, h]⟩
  rw [hiff]
  by_cases hs : (sizes p).2 = 0
  · rw [if_pos hs]
    have ha := hz.mp hs
    rw [ha, h3]
    constructor
    · rintro ⟨-, hq⟩ (⟨pl, f, n, rfl, hn, hlt⟩ | ⟨-, q, hq1, hq2⟩)
      · simp [Place.address, Place.length, Place.bytes] at ha
        subst ha
        simp at hlt
      · exact hq q hq1 hq2
    · intro hw
      refine ⟨rfl, fun q hq h => hw (Or.inr ⟨ha, q, hq, h⟩)⟩
  · rw [if_neg hs]
    have ha : p.address ≠ [] := fun h => hs (hz.mpr h)
    have hadd : p.address = p.bytes.take p.address.length := by
      simp only [Place.address, List.length_take]
      rw [List.take_eq_take_min]
    by_cases hl : ∀ pl f, p ≠ .link pl f
    · rw [sizes_address p hp h32 hl, ← hadd]
      simp only [true_iff]
      rintro (⟨pl, f, n, rfl, -⟩ | ⟨h, -⟩)
      · exact hl pl f rfl
      · exact ha h
    · have : ∃ pl f, p = .link pl f := by
        cases p with
        | link pl f => exact ⟨pl, f, rfl⟩
        | _ => exact absurd (fun pl f => by simp) hl
      obtain ⟨pl, f, rfl⟩ := this
      rw [sizes_link pl f h32]
      have had : (Place.link pl f).address = pl := by simp [Place.address, Place.length, Place.bytes]
      rw [had] at ha ⊢
      simp only [Place.bytes, Wrong, had]
      constructor
      · rintro he (⟨pl', f', n, hpl, hn, hlt⟩ | ⟨h, -⟩)
        · cases hpl
          rw [hn] at he
          have := congrArg List.length he
          rw [List.length_take] at this
          simp only at this
          omega
        · exact ha h
      · intro hw
        cases hlf : lengthOf f with
        | none => simp
        | some n =>
          have : ¬ n < pl.length := fun h => hw (Or.inl ⟨pl, f, n, rfl, hlf, h⟩)
          simp only
          rw [List.take_of_length_le (by omega)]

/-- In the raw and the verbose style all the bytes are in the string: those of `mr_alen`, or all of the array or attribute; and
in every style if they are more than 32. -/
theorem quoted_all (st : Style) (before : List Place) (p : Place) (toks : List Tok) (hp : p.Ok)
    (h : shown st before p = some toks) (hs : st ≠ .abbrev' ∨ 32 < p.bytes.length) :
    quotedIn toks = some (match p with | .mreq _ _ => p.address | _ => p.bytes) := by
  unfold shown at h
  cases hr : after st before fresh with
  | none => rw [hr] at h; simp at h
  | some r =>
    rw [hr] at h
    simp only [Option.map_eq_some_iff] at h
    obtain ⟨⟨tk, r'⟩, h1, rfl⟩ := h
    by_cases h32 : p.bytes.length ≤ 32
    · have hst : st ≠ .abbrev' := by rcases hs with h | h; exact h; omega
      rw [print_at st r p hp h32] at h1
      have hq : ∃ l, tk = .quoted (p.bytes.take (sizes p).1) :: l := by
        unfold printAddr at h1
        simp only [hst, ne_eq, not_false_eq_true, true_or, if_true] at h1
        split at h1
        · cases h1; exact ⟨_, rfl⟩
        · split at h1
          · cases h1
          · cases h1; exact ⟨_, rfl⟩
      obtain ⟨l, rfl⟩ := hq
      cases p with
      | mreq a n =>
        simp only [quotedIn, sizes, Place.address, Place.bytes, Place.length]
        by_cases hn : n ≤ a.length
        · rw [if_pos hn, Nat.min_eq_left hn]
        · rw [if_neg hn, Nat.min_eq_right (by omega)]
      | _ => simp [quotedIn, sizes, Place.bytes]
    · rw [print_long st r p hp (by omega)] at h1
      cases h1
      cases p with
      | mreq a n => exact absurd hp.2 (by simp only [Place.bytes] at h32; omega)
      | _ => rfl

/-! ## Witnesses -/

/-- the address of a member of a bridge is cut to one byte: the address family of the message, AF_BRIDGE, is taken for the type of
the device, ARPHRD_ARCNET -/
theorem bridge_cut : shown .abbrev' [] (.link [0x52, 0x54, 0x00, 0x12, 0x34, 0x56] 7) = some [.text "52".toList] ∧
    (Place.link [0x52, 0x54, 0x00, 0x12, 0x34, 0x56] 7).address = [0x52, 0x54, 0x00, 0x12, 0x34, 0x56] := by
  decide +kernel

/-- the 20 bytes of an InfiniBand address are cut to 7 where the address family is AF_UNSPEC -/
theorem infiniband_cut : shown .abbrev' [] (.link (List.range 20) 0) = some [.text "00:01:02:03:04:05:06".toList] := by
  decide +kernel

/-- an address of no bytes is shown as the one before it: a point-to-point device has no address, but is shown with that of the
Ethernet device asked for before -/
theorem stale_shown :
    shown .abbrev' [.ifr [0x52, 0x54, 0x00, 0x12, 0x34, 0x56, 0, 0, 0, 0, 0, 0, 0, 0] 1] (.ifr (List.replicate 14 0) 512) =
      some [.text "52:54:00:12:34:56".toList] ∧
    shown .abbrev' [] (.ifr (List.replicate 14 0) 512) = some [.text []] ∧
    shown .abbrev' [.neigh [1, 2, 3, 4, 5, 6]] (.mreq (List.replicate 8 0) 0) = some [.text "01:02:03:04:05:06".toList] := by
  decide +kernel

/-- an ordinary case: an Ethernet address after others -/
example : let p := Place.ifr ([0x52, 0x54, 0x00, 0xab, 0x34, 0xff] ++ List.replicate 8 0) 1
    let before := [Place.mreq [1, 2, 3, 4, 5, 6, 0, 0] 6, .link [1, 2, 3, 4, 5, 6] 0]
    shown .verbose before p = some [.quoted (0x52 :: 0x54 :: 0x00 :: 0xab :: 0x34 :: 0xff :: List.replicate 8 0),
      .comment "52:54:00:ab:34:ff".toList] ∧ ¬ Wrong before p := by
  refine ⟨by decide +kernel, ?_⟩
  rintro (⟨pl, f, n, h, -⟩ | ⟨h, -⟩)
  · cases h
  · revert h; decide +kernel

example : let p := Place.ifr ([0x52, 0x54, 0x00, 0xab, 0x34, 0xff] ++ List.replicate 8 0) 1
    p.Ok ∧ p.bytes.length ≤ 32 ∧ p.address = [0x52, 0x54, 0x00, 0xab, 0x34, 0xff] := by
  refine ⟨⟨?_, by decide⟩, by decide, by decide +kernel⟩
  unfold Bytes; decide

example : (Place.link (List.range 33) 0).Ok ∧ 32 < (Place.link (List.range 33) 0).bytes.length ∧
    shown .abbrev' [] (.link (List.range 33) 0) = some [.quoted (List.range 33)] := by
  refine ⟨⟨?_, by decide⟩, by decide, by decide +kernel⟩
  unfold Bytes; decide

end Strace.Hw
