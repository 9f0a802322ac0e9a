import Verif.Packed.Spec
import Mathlib.Data.List.Basic
/-!
# C110: records packed one after another
-/
namespace Strace.Packed

/-! ## memory -/

theorem bytes_holds (mem : Mem) : ∀ (bs : List Nat) (a : Nat), Holds mem a bs → bytes mem a bs.length = some bs
  | [], _, _ => rfl
  | b :: bs, a, h => by
    have h0 := h 0 (by simp)
    have ht : Holds mem (a + 1) bs := by
      intro i hi
      have := h (i + 1) (by simpa using hi)
      rw [show a + 1 + i = a + (i + 1) by omega, this]
      rfl
    simp only [List.length_cons, bytes]
    rw [bytes_holds mem bs (a + 1) ht]
    simp only [Nat.add_zero] at h0
    rw [h0]
    rfl

theorem holds_append (mem : Mem) (a : Nat) (xs ys : List Nat) (h : Holds mem a (xs ++ ys)) :
    Holds mem a xs ∧ Holds mem (a + xs.length) ys := by
  constructor
  · intro i hi
    rw [h i (by simp; omega), List.getElem_append_left hi]
  · intro i hi
    have := h (xs.length + i) (by simp; omega)
    rw [show a + xs.length + i = a + (xs.length + i) by omega, this]
    simp

theorem fetch_holds (mem : Mem) (a : Nat) (bs : List Nat) (h : Holds mem a bs) (ha : 0 < a) (hb : a + bs.length ≤ 2 ^ 64) :
    fetch mem a bs.length = some bs := by
  unfold fetch
  rw [if_neg (by omega), bytes_holds mem bs a h]

theorem bytes_agree (m m' : Mem) : ∀ (n a : Nat), Agree m m' a n → bytes m a n = bytes m' a n
  | 0, _, _ => rfl
  | n + 1, a, h => by
    have ht : Agree m m' (a + 1) n := by
      intro i hi
      have := h (i + 1) (by omega)
      rw [show a + 1 + i = a + (i + 1) by omega]; exact this
    have h0 := h 0 (by omega)
    simp only [Nat.add_zero] at h0
    simp only [bytes]
    rw [h0, bytes_agree m m' n (a + 1) ht]

theorem fetch_agree (m m' : Mem) (a n : Nat) (h : Agree m m' a n) : fetch m a n = fetch m' a n := by
  unfold fetch
  rw [bytes_agree m m' n a h]

/-! ## numbers -/

theorem leb_length (w : Nat) : ∀ v, (leb w v).length = w := by
  induction w with
  | zero => intro v; rfl
  | succ w ih => intro v; simp [leb, ih]

theorem num_leb (w : Nat) : ∀ (xs ys : List Nat) (v : Nat), v < 256 ^ w → num (xs ++ (leb w v ++ ys)) xs.length w = v := by
  induction w with
  | zero => intro xs ys v h; simp [num]; simp at h; omega
  | succ w ih =>
    intro xs ys v h
    simp only [num, leb]
    have e : xs ++ (v % 256 :: leb w (v / 256) ++ ys) = (xs ++ [v % 256]) ++ (leb w (v / 256) ++ ys) := by simp
    have h2 := ih (xs ++ [v % 256]) ys (v / 256) (by rw [Nat.pow_succ] at h; omega)
    rw [← e] at h2
    simp only [List.length_append, List.length_singleton] at h2
    rw [h2]
    simp
    omega

theorem num_at (w off : Nat) (xs ys : List Nat) (v : Nat) (ho : xs.length = off) (h : v < 256 ^ w) :
    num (xs ++ (leb w v ++ ys)) off w = v := ho ▸ num_leb w xs ys v h

/-! ## contexts -/

/-- the header of a context -/
def Rec.head (r : Rec) : List Nat :=
  leb 8 r.id ++ leb 8 r.flags ++ leb 8 (32 + r.ctx.length + r.pad.length) ++ leb 8 r.ctx.length

theorem head_length (r : Rec) : r.head.length = 32 := by simp [Rec.head, leb_length]

theorem enc_split (r : Rec) : r.enc = r.head ++ (r.ctx ++ r.pad) := by simp [Rec.enc, Rec.head]

theorem enc_length (r : Rec) : r.enc.length = 32 + r.ctx.length + r.pad.length := by
  rw [enc_split]; simp [head_length]; omega

theorem ctxAt_enc (mem : Mem) (a : Nat) (r : Rec) (hf : r.Fits) (hl : 32 + r.ctx.length + r.pad.length < 2 ^ 64)
    (h : Holds mem a r.enc) (ha : 0 < a) (hb : a + 32 ≤ 2 ^ 64) :
    ctxAt mem a = some ⟨r.id, r.flags, 32 + r.ctx.length + r.pad.length, r.ctx.length⟩ := by
  rw [enc_split] at h
  have hh := (holds_append _ _ _ _ h).1
  have hfetch := fetch_holds mem a r.head hh ha (by rw [head_length]; exact hb)
  rw [head_length] at hfetch
  unfold ctxAt
  rw [hfetch]
  have e : (2 : Nat) ^ 64 = 256 ^ 8 := by decide
  simp only [Option.map_some, Option.some.injEq, Ctx.mk.injEq]
  refine ⟨?_, ?_, ?_, ?_⟩
  · have := num_at 8 0 [] (leb 8 r.flags ++ leb 8 (32 + r.ctx.length + r.pad.length) ++ leb 8 r.ctx.length) r.id rfl (e ▸ hf.1)
    simpa [Rec.head] using this
  · have := num_at 8 8 (leb 8 r.id) (leb 8 (32 + r.ctx.length + r.pad.length) ++ leb 8 r.ctx.length) r.flags (leb_length _ _) (e ▸ hf.2)
    simpa [Rec.head] using this
  · have := num_at 8 16 (leb 8 r.id ++ leb 8 r.flags) (leb 8 r.ctx.length) (32 + r.ctx.length + r.pad.length) (by simp [leb_length])
      (e ▸ hl)
    simpa [Rec.head] using this
  · have := num_at 8 24 (leb 8 r.id ++ leb 8 r.flags ++ leb 8 (32 + r.ctx.length + r.pad.length)) [] r.ctx.length
      (by simp [leb_length]) (by rw [← e]; omega)
    simpa [Rec.head] using this

theorem showCtx_enc (r : Rec) (a len : Nat) (hl : 32 + r.ctx.length + r.pad.length ≤ len) (ha : a + len ≤ 2 ^ 64) :
    showCtx ⟨r.id, r.flags, 32 + r.ctx.length + r.pad.length, r.ctx.length⟩ a len =
      .ctx ⟨r.id, r.flags, 32 + r.ctx.length + r.pad.length, r.ctx.length⟩ (if r.ctx = [] then none else some (a + 32, r.ctx.length)) := by
  unfold showCtx
  simp only
  have e : min r.ctx.length (if min (32 + r.ctx.length + r.pad.length) len > 32 then min (32 + r.ctx.length + r.pad.length) len - 32 else 0) =
      r.ctx.length := by
    split <;> omega
  rw [e]
  cases hc : r.ctx with
  | nil => simp
  | cons x xs =>
    rw [hc] at hl
    simp only [List.length_cons] at hl ⊢
    rw [if_pos (by omega), if_neg (by simp), Nat.mod_eq_of_lt (by omega)]

/-- where the next context is -/
theorem next_spec (c : Ctx) (a len : Nat) (hl : len < 2 ^ 64) (h : nextAddr c a len ≠ 0) :
    nextAddr c a len = a + c.len ∧ 32 ≤ c.len ∧ c.len + nextLen c len = len ∧ 0 < nextLen c len := by
  have e : nextLen c len = if c.len ≥ 32 then (if len ≥ c.len then len - c.len else 0) else 0 := rfl
  unfold nextAddr at h ⊢
  by_cases h1 : c.len ≥ 32
  · rw [if_pos h1] at h e ⊢
    by_cases h3 : nextLen c len > 0 ∧ (a + c.len) % 2 ^ 64 > a
    · rw [if_pos h3]
      have h2 : len ≥ c.len := by
        by_contra h2
        rw [if_neg h2] at e
        omega
      rw [if_pos h2] at e
      refine ⟨?_, h1, by omega, h3.1⟩
      have := h3.2
      omega
    · rw [if_neg h3] at h; simp at h
  · rw [if_neg h1] at h; simp at h

/-- what is printed after the last context: nothing, or the place where the rest that is no context begins -/
def rest (a t : Nat) : List Out := if t = 0 then [] else [.moreAt a]

theorem next_last (r : Rec) (a t : Nat) (ht : t = 0 ∨ a + (32 + r.ctx.length + r.pad.length) < 2 ^ 64) :
    nextAddr ⟨r.id, r.flags, 32 + r.ctx.length + r.pad.length, r.ctx.length⟩ a (32 + r.ctx.length + r.pad.length + t) =
      (if t = 0 then 0 else a + (32 + r.ctx.length + r.pad.length)) ∧
    nextLen ⟨r.id, r.flags, 32 + r.ctx.length + r.pad.length, r.ctx.length⟩ (32 + r.ctx.length + r.pad.length + t) = t := by
  have e : nextLen ⟨r.id, r.flags, 32 + r.ctx.length + r.pad.length, r.ctx.length⟩ (32 + r.ctx.length + r.pad.length + t) = t := by
    unfold nextLen
    simp only
    rw [if_pos (by omega), if_pos (by omega)]
    omega
  refine ⟨?_, e⟩
  unfold nextAddr
  rw [e]
  simp only
  rw [if_pos (by omega)]
  by_cases h0 : t = 0
  · rw [if_neg (by omega), if_pos h0]
  · rw [Nat.mod_eq_of_lt (by omega), if_pos (by omega), if_neg h0]

theorem not_trunc (lim : Option Nat) (n : Nat) (h : ∀ m, lim = some m → n ≤ m) : trunc lim n = false := by
  unfold trunc
  cases lim with
  | none => rfl
  | some m => have := h m rfl; simp; omega

theorem seq_all (mem : Mem) (lim : Option Nat) (t : Nat) : ∀ (rs : List Rec) (r : Rec) (b : Bool) (elt a : Nat),
    (∀ r' ∈ r :: rs, r'.Fits) → Holds mem a (encAll (r :: rs)) → 0 < a → a + (encAll (r :: rs)).length + t ≤ 2 ^ 64 →
    (t < 32 ∨ ctxAt mem (a + (encAll (r :: rs)).length) = none) →
    (∀ m, lim = some m → elt + (r :: rs).length ≤ m) →
    seq mem lim b elt a ((encAll (r :: rs)).length + t) = wantCtx a (r :: rs) ++ rest (a + (encAll (r :: rs)).length) t := by
  intro rs
  induction rs with
  | nil =>
    intro r b elt a hf h ha hb hend hlim
    have hlen : (encAll [r]).length = 32 + r.ctx.length + r.pad.length := by simp [encAll, enc_length]
    have hh : Holds mem a r.enc := by simpa [encAll] using h
    rw [hlen] at hb hend ⊢
    rw [seq, if_pos (by omega), ctxAt_enc mem a r (hf r (by simp)) (by omega) hh ha (by omega)]
    simp only
    have ht : trunc lim (elt + 1) = false := not_trunc lim _ (fun m hm => by have := hlim m hm; simpa using this)
    rw [ht, showCtx_enc r a _ (by omega) (by omega)]
    obtain ⟨hn, hl⟩ := next_last r a t (by omega)
    unfold rest
    by_cases h0 : t = 0
    · rw [if_pos h0] at hn
      rw [dif_pos hn, if_pos h0]
      rfl
    · rw [if_neg h0] at hn
      rw [dif_neg (by rw [hn]; omega), hn, hl, seq, if_neg h0]
      have : (if t ≥ 32 then ctxAt mem (a + (32 + r.ctx.length + r.pad.length)) else none) = none := by
        rcases hend with q | q
        · rw [if_neg (by omega)]
        · rw [q]; split <;> rfl
      rw [this]
      rfl
  | cons r2 rs ih =>
    intro r b elt a hf h ha hb hend hlim
    have hlen : (encAll (r :: r2 :: rs)).length = 32 + r.ctx.length + r.pad.length + (encAll (r2 :: rs)).length := by
      simp [encAll, enc_length]
    have hlen2 : (encAll (r2 :: rs)).length ≥ 32 := by simp [encAll, enc_length]; omega
    have hsplit : encAll (r :: r2 :: rs) = r.enc ++ encAll (r2 :: rs) := by simp [encAll]
    rw [hsplit] at h
    obtain ⟨h1, h2⟩ := holds_append _ _ _ _ h
    rw [enc_length] at h2
    rw [hlen] at hb hend ⊢
    rw [seq, if_pos (by omega), ctxAt_enc mem a r (hf r (by simp)) (by omega) h1 ha (by omega)]
    simp only
    have ht : trunc lim (elt + 1) = false := not_trunc lim _ (fun m hm => by have := hlim m hm; simp at this; omega)
    rw [ht, showCtx_enc r a _ (by omega) (by omega)]
    obtain ⟨hn, hl⟩ := next_last r a ((encAll (r2 :: rs)).length + t) (by omega)
    rw [if_neg (by omega)] at hn
    rw [Nat.add_assoc (32 + r.ctx.length + r.pad.length), dif_neg (by rw [hn]; omega), hn, hl]
    have q1 : ∀ r' ∈ r2 :: rs, r'.Fits := fun r' hr => hf r' (List.mem_cons_of_mem _ hr)
    have q2 : ∀ m, lim = some m → elt + 1 + (r2 :: rs).length ≤ m := by
      intro m hm
      have := hlim m hm
      rw [List.length_cons] at this
      omega
    have q3 : a + (32 + r.ctx.length + r.pad.length) + (encAll (r2 :: rs)).length + t ≤ 2 ^ 64 := by omega
    have e4 : a + (32 + r.ctx.length + r.pad.length + (encAll (r2 :: rs)).length) =
      a + (32 + r.ctx.length + r.pad.length) + (encAll (r2 :: rs)).length := by omega
    rw [e4] at hend ⊢
    have := ih r2 true (elt + 1) (a + (32 + r.ctx.length + r.pad.length)) q1 h2 (by omega) q3 hend q2
    rw [this]
    simp [wantCtx, Nat.add_assoc]

/-- C110: contexts packed one after another are all shown, in order, with the place of their text; what follows them and is no
context is marked -/
theorem contexts_shown (mem : Mem) (lim : Option Nat) (r : Rec) (rs : List Rec) (a t : Nat) (hf : ∀ r' ∈ r :: rs, r'.Fits)
    (h : Holds mem a (encAll (r :: rs))) (ha : 0 < a) (hb : a + (encAll (r :: rs)).length + t ≤ 2 ^ 64)
    (hend : t < 32 ∨ ∃ i, i < 32 ∧ mem (a + (encAll (r :: rs)).length + i) = none)
    (hlim : ∀ m, lim = some m → (r :: rs).length ≤ m) :
    seq mem lim false 0 a ((encAll (r :: rs)).length + t) =
      wantCtx a (r :: rs) ++ if t = 0 then [] else [.moreAt (a + (encAll (r :: rs)).length)] := by
  refine seq_all mem lim t rs r false 0 a hf h ha hb ?_ (fun m hm => by have := hlim m hm; omega)
  rcases hend with q | ⟨i, hi, q⟩
  · exact Or.inl q
  · right
    have key : ∀ (n x i : Nat), i < n → mem (x + i) = none → bytes mem x n = none := by
      intro n
      induction n with
      | zero => intro x i hi; omega
      | succ n ih =>
        intro x i hi hm
        simp only [bytes]
        cases i with
        | zero => rw [Nat.add_zero] at hm; rw [hm]
        | succ i =>
          rw [ih (x + 1) i (by omega) (by rw [show x + 1 + i = x + (i + 1) by omega]; exact hm)]
          cases mem x <;> rfl
    unfold ctxAt fetch
    rw [key 32 _ i hi q]
    split <;> rfl

/-- more contexts than the limit: the first ones, and a mark -/
theorem contexts_limited (mem : Mem) (m : Nat) : ∀ (rs : List Rec) (b : Bool) (elt a t : Nat), (∀ r' ∈ rs, r'.Fits) →
    Holds mem a (encAll rs) → 0 < a → a + (encAll rs).length + t ≤ 2 ^ 64 → elt ≤ m → m < elt + rs.length →
    seq mem (some m) b elt a ((encAll rs).length + t) = (wantCtx a rs).take (m - elt) ++ [.more] := by
  intro rs
  induction rs with
  | nil => intro b elt a t _ _ _ _ h1 h2; simp at h2; omega
  | cons r rs ih =>
    intro b elt a t hf h ha hb h1 h2
    have hlen : (encAll (r :: rs)).length = 32 + r.ctx.length + r.pad.length + (encAll rs).length := by simp [encAll, enc_length]
    have hsplit : encAll (r :: rs) = r.enc ++ encAll rs := by simp [encAll]
    rw [hsplit] at h
    obtain ⟨g1, g2⟩ := holds_append _ _ _ _ h
    rw [enc_length] at g2
    rw [hlen] at hb ⊢
    rw [seq, if_pos (by omega), ctxAt_enc mem a r (hf r (by simp)) (by omega) g1 ha (by omega)]
    simp only
    by_cases he : elt = m
    · rw [if_pos (by simp [trunc, he]), he]
      simp
    · rw [if_neg (by simp [trunc]; omega), showCtx_enc r a _ (by omega) (by omega)]
      rw [List.length_cons] at h2
      have hpos : 0 < (encAll rs).length := by
        cases rs with
        | nil => simp at h2; omega
        | cons r2 rs => simp [encAll, enc_length]; omega
      obtain ⟨hn, hl⟩ := next_last r a ((encAll rs).length + t) (by omega)
      rw [if_neg (by omega)] at hn
      rw [Nat.add_assoc (32 + r.ctx.length + r.pad.length), dif_neg (by rw [hn]; omega), hn, hl]
      have := ih true (elt + 1) (a + (32 + r.ctx.length + r.pad.length)) t (fun r' hr => hf r' (List.mem_cons_of_mem _ hr)) g2 (by omega)
        (by omega) (by omega) (by omega)
      rw [this, show m - elt = (m - (elt + 1)) + 1 by omega]
      simp [wantCtx, Nat.add_assoc]

/-- and what lies at the place given is the text -/
theorem text_place (mem : Mem) (r : Rec) (a : Nat) (h : Holds mem a r.enc) : Holds mem (a + 32) r.ctx := by
  rw [enc_split] at h
  have := (holds_append _ _ _ _ h).2
  rw [head_length] at this
  exact (holds_append _ _ _ _ this).1

/-- whatever the memory holds, only the given length of it is looked at -/
theorem contexts_local (m m' : Mem) (lim : Option Nat) (b : Bool) (elt a len : Nat) (hl32 : len < 2 ^ 32) (h : Agree m m' a len) :
    seq m lim b elt a len = seq m' lim b elt a len := by
  induction len using Nat.strongRecOn generalizing b elt a with
  | _ len ih =>
    rw [seq, seq]
    have e : (if len ≥ 32 then ctxAt m a else none) = if len ≥ 32 then ctxAt m' a else none := by
      by_cases hl : len ≥ 32
      · rw [if_pos hl, if_pos hl]
        unfold ctxAt
        rw [fetch_agree m m' a 32 (fun i hi => h i (by omega))]
      · rw [if_neg hl, if_neg hl]
    rw [e]
    split
    · rfl
    · rename_i c hc
      by_cases ht : trunc lim (elt + 1) = true
      · rw [if_pos ht, if_pos ht]
      · rw [if_neg ht, if_neg ht]
        by_cases hn : nextAddr c a len = 0
        · rw [dif_pos hn, dif_pos hn]
        · rw [dif_neg hn, dif_neg hn]
          obtain ⟨h1, h2, h3, h4⟩ := next_spec c a len (by omega) hn
          have hb : Agree m m' (nextAddr c a len) (nextLen c len) := by
            intro i hi
            rw [h1, Nat.add_assoc]
            exact h _ (by omega)
          rw [ih _ (by omega) true (elt + 1) _ (by omega) hb]

/-- and so does every text printed lie within it -/
theorem texts_inside (mem : Mem) (lim : Option Nat) (b : Bool) (elt a len : Nat) (hl32 : len < 2 ^ 32) (ha : a + len ≤ 2 ^ 64)
    (c : Ctx) (p n : Nat) (h : .ctx c (some (p, n)) ∈ seq mem lim b elt a len) : a + 32 ≤ p ∧ p + n ≤ a + len := by
  induction len using Nat.strongRecOn generalizing b elt a with
  | _ len ih =>
    rw [seq] at h
    split at h
    · unfold noHeader at h
      cases b <;> simp at h
    · rename_i c' hc
      have hlen : len ≥ 32 := by
        by_contra hlen
        rw [if_neg hlen] at hc
        cases hc
      by_cases ht : trunc lim (elt + 1) = true
      · rw [if_pos ht] at h
        simp at h
      · rw [if_neg ht] at h
        rcases List.mem_cons.mp h with h | h
        · unfold showCtx at h
          simp only [Out.ctx.injEq] at h
          obtain ⟨_, h⟩ := h
          by_cases hn : min c'.ctxLen (if min c'.len len > 32 then min c'.len len - 32 else 0) > 0
          · rw [if_pos hn] at h
            simp only [Option.some.injEq, Prod.mk.injEq] at h
            have hm : (if min c'.len len > 32 then min c'.len len - 32 else 0) ≤ len - 32 := by split <;> omega
            have : n ≤ len - 32 := by omega
            have hp : p = a + 32 := by
              rw [h.1, Nat.mod_eq_of_lt]
              omega
            omega
          · rw [if_neg hn] at h
            cases h
        · by_cases hn : nextAddr c' a len = 0
          · rw [dif_pos hn] at h
            simp at h
          · rw [dif_neg hn] at h
            obtain ⟨h1, h2, h3, h4⟩ := next_spec c' a len (by omega) hn
            rw [h1] at h
            have := ih _ (by omega) true (elt + 1) (a + c'.len) (by omega) (by omega) h
            omega

/-- no more is printed than one structure for every 32 bytes, and a mark -/
theorem contexts_count (mem : Mem) (lim : Option Nat) (b : Bool) (elt a len : Nat) (hl32 : len < 2 ^ 32) :
    (seq mem lim b elt a len).length ≤ len / 32 + 1 := by
  induction len using Nat.strongRecOn generalizing b elt a with
  | _ len ih =>
    rw [seq]
    split
    · simp
    · rename_i c' hc
      by_cases ht : trunc lim (elt + 1) = true
      · rw [if_pos ht]; simp
      · rw [if_neg ht]
        by_cases hn : nextAddr c' a len = 0
        · rw [dif_pos hn]; simp
        · rw [dif_neg hn]
          obtain ⟨h1, h2, h3, h4⟩ := next_spec c' a len (by omega) hn
          have := ih _ (by omega : nextLen c' len < len) true (elt + 1) (nextAddr c' a len) (by omega)
          simp only [List.length_cons]
          omega

/-! ## search results -/

def Found.head (f : Found) : List Nat :=
  leb 8 f.transid ++ leb 8 f.objectid ++ leb 8 f.offset ++ leb 4 f.type ++ leb 4 f.data.length

theorem fhead_length (f : Found) : f.head.length = 32 := by simp [Found.head, leb_length]

theorem fenc_split (f : Found) : f.enc = f.head ++ f.data := by simp [Found.enc, Found.head]

theorem fenc_length (f : Found) : f.enc.length = 32 + f.data.length := by rw [fenc_split]; simp [fhead_length]

theorem hdrAt_enc (mem : Mem) (a : Nat) (f : Found) (hf : f.Fits) (h : Holds mem a f.enc) (ha : 0 < a) (hb : a + 32 ≤ 2 ^ 64) :
    hdrAt mem a = some ⟨f.transid, f.objectid, f.offset, f.type, f.data.length⟩ := by
  rw [fenc_split] at h
  have hh := (holds_append _ _ _ _ h).1
  have hfetch := fetch_holds mem a f.head hh ha (by rw [fhead_length]; exact hb)
  rw [fhead_length] at hfetch
  unfold hdrAt
  rw [hfetch]
  have e : (2 : Nat) ^ 64 = 256 ^ 8 := by decide
  have e4 : (2 : Nat) ^ 32 = 256 ^ 4 := by decide
  obtain ⟨f1, f2, f3, f4, f5⟩ := hf
  rw [e] at f1 f2 f3
  rw [e4] at f4 f5
  simp only [Option.map_some, Option.some.injEq, Hdr.mk.injEq]
  refine ⟨?_, ?_, ?_, ?_, ?_⟩
  · have := num_at 8 0 [] (leb 8 f.objectid ++ leb 8 f.offset ++ leb 4 f.type ++ leb 4 f.data.length) f.transid rfl f1
    simpa [Found.head] using this
  · have := num_at 8 8 (leb 8 f.transid) (leb 8 f.offset ++ leb 4 f.type ++ leb 4 f.data.length) f.objectid (leb_length _ _) f2
    simpa [Found.head] using this
  · have := num_at 8 16 (leb 8 f.transid ++ leb 8 f.objectid) (leb 4 f.type ++ leb 4 f.data.length) f.offset (by simp [leb_length]) f3
    simpa [Found.head] using this
  · have := num_at 4 24 (leb 8 f.transid ++ leb 8 f.objectid ++ leb 8 f.offset) (leb 4 f.data.length) f.type (by simp [leb_length]) f4
    simpa [Found.head] using this
  · have := num_at 4 28 (leb 8 f.transid ++ leb 8 f.objectid ++ leb 8 f.offset ++ leb 4 f.type) [] f.data.length (by simp [leb_length]) f5
    simpa [Found.head] using this

theorem search_from (mem : Mem) (buf size : Nat) : ∀ (fs : List Found) (off : Nat), (∀ f ∈ fs, f.Fits) →
    Holds mem (buf + off) (foundAll fs) → 0 < buf → off + (foundAll fs).length ≤ size → buf + size < 2 ^ 64 →
    search mem buf size fs.length off = fs.map fun f => .hdr ⟨f.transid, f.objectid, f.offset, f.type, f.data.length⟩ := by
  intro fs
  induction fs with
  | nil => intros; rfl
  | cons f fs ih =>
    intro off hf h hbuf hs hb
    have hsplit : foundAll (f :: fs) = f.enc ++ foundAll fs := by simp [foundAll]
    have hlen : (foundAll (f :: fs)).length = 32 + f.data.length + (foundAll fs).length := by rw [hsplit]; simp [fenc_length]
    rw [hsplit] at h
    obtain ⟨g1, g2⟩ := holds_append _ _ _ _ h
    rw [fenc_length] at g2
    rw [hlen] at hs
    rw [List.length_cons, search]
    rw [Nat.mod_eq_of_lt (by omega : buf + off < 2 ^ 64), Nat.mod_eq_of_lt (by omega : off + 32 < 2 ^ 64), if_neg (by omega),
      hdrAt_enc mem _ f (hf f (by simp)) g1 (by omega) (by omega)]
    simp only [List.map_cons, List.cons.injEq, true_and]
    rw [Nat.mod_eq_of_lt (by omega : off + (32 + f.data.length) < 2 ^ 64)]
    exact ih _ (fun f' hf' => hf f' (List.mem_cons_of_mem _ hf')) (by rw [← Nat.add_assoc]; exact g2) hbuf (by omega) hb

/-- C110: the items found are all shown, in order, with their keys and lengths -/
theorem items_shown (mem : Mem) (buf size : Nat) (fs : List Found) (hf : ∀ f ∈ fs, f.Fits) (h : Holds mem buf (foundAll fs))
    (hbuf : 0 < buf) (hs : (foundAll fs).length ≤ size) (hb : buf + size < 2 ^ 64) :
    search mem buf size fs.length 0 = fs.map fun f => .hdr ⟨f.transid, f.objectid, f.offset, f.type, f.data.length⟩ :=
  search_from mem buf size fs 0 hf h hbuf (by omega) hb

/-- only the buffer is looked at, whatever it holds and however many items it is said to hold -/
theorem items_local (m m' : Mem) (buf size : Nat) (hbuf : 32 ≤ buf) (h : Agree m m' buf size) : ∀ (n off : Nat), off < 2 ^ 64 →
    search m buf size n off = search m' buf size n off := by
  intro n
  induction n with
  | zero => intros; rfl
  | succ n ih =>
    intro off ho
    simp only [search]
    by_cases hc : (buf + off) % 2 ^ 64 < buf ∨ (off + 32) % 2 ^ 64 > size
    · rw [if_pos hc, if_pos hc]
    · rw [if_neg hc, if_neg hc]
      have e : hdrAt m ((buf + off) % 2 ^ 64) = hdrAt m' ((buf + off) % 2 ^ 64) := by
        unfold hdrAt
        congr 1
        have hmod : (buf + off) % 2 ^ 64 = buf + off := by omega
        rw [hmod] at hc ⊢
        by_cases hw : off + 32 < 2 ^ 64
        · apply fetch_agree
          rw [Nat.mod_eq_of_lt hw] at hc
          intro i hi
          rw [Nat.add_assoc]
          exact h _ (by omega)
        · unfold fetch
          rw [if_pos (by omega), if_pos (by omega)]
      rw [e]
      split
      · rfl
      · rw [ih _ (Nat.mod_lt _ (by decide))]

/-- a context that gives a length smaller than its header, or larger than what is left, is the last one shown; what may follow it is
not marked -/
theorem bad_length (mem : Mem) (lim : Option Nat) (b : Bool) (elt a len : Nat) (c : Ctx) (hc : ctxAt mem a = some c) (hl : 32 ≤ len)
    (hlim : ∀ m, lim = some m → elt < m) (hbad : c.len < 32 ∨ len < c.len) :
    ∃ text, seq mem lim b elt a len = [.ctx c text] := by
  rw [seq, if_pos hl, hc]
  simp only
  rw [not_trunc lim (elt + 1) (fun m hm => hlim m hm)]
  have hn : nextAddr c a len = 0 := by
    unfold nextAddr nextLen
    rcases hbad with q | q
    · rw [if_neg (by omega)]
    · by_cases h32 : c.len ≥ 32
      · rw [if_pos h32, if_neg]
        rw [if_pos h32, if_neg (by omega)]
        omega
      · rw [if_neg h32]
  rw [dif_pos hn]
  unfold showCtx
  exact ⟨_, rfl⟩

/-! ## the hypotheses are met -/

/-- two contexts at 0x1000, the first with text and padding -/
def twoRecs : List Rec := [⟨101, 0, [97, 98, 0], [0, 0, 0, 0, 0]⟩, ⟨104, 1, [], []⟩]
def memOf (a : Nat) (bs : List Nat) : Mem := fun x => if x < a then none else bs[x - a]?

theorem memOf_holds (a : Nat) (bs : List Nat) : Holds (memOf a bs) a bs := by
  intro i hi
  unfold memOf
  rw [if_neg (by omega), Nat.add_sub_cancel_left, List.getElem?_eq_getElem hi]

example : (∀ r ∈ twoRecs, r.Fits) ∧ Holds (memOf 4096 (encAll twoRecs)) 4096 (encAll twoRecs) ∧ 4096 + (encAll twoRecs).length + 7 ≤ 2 ^ 64 :=
  ⟨by intro r hr; simp [twoRecs] at hr; rcases hr with rfl | rfl <;> simp [Rec.Fits], memOf_holds _ _, by decide +kernel⟩
example : wantCtx 4096 twoRecs = [.ctx ⟨101, 0, 40, 3⟩ (some (4128, 3)), .ctx ⟨104, 1, 32, 0⟩ none] := by decide +kernel
example : ∃ text, seq (memOf 4096 (List.replicate 16 0 ++ [31] ++ List.replicate 80 0)) none false 0 4096 97 = [.ctx ⟨0, 0, 31, 0⟩ text] :=
  bad_length _ _ _ _ _ _ _ (by decide +kernel) (by decide) (by simp) (by decide)
def twoFound : List Found := [⟨1, 256, 0, 1, [1, 2, 3]⟩, ⟨2, 257, 5, 12, []⟩]
example : (∀ f ∈ twoFound, f.Fits) ∧ Holds (memOf 4096 (foundAll twoFound)) 4096 (foundAll twoFound) ∧ (foundAll twoFound).length ≤ 3992 :=
  ⟨by intro r hr; simp [twoFound] at hr; rcases hr with rfl | rfl <;> simp [Found.Fits], memOf_holds _ _, by decide +kernel⟩
example : search (memOf 4096 (foundAll twoFound)) 4096 3992 3 0 =
    [.hdr ⟨1, 256, 0, 1, 3⟩, .hdr ⟨2, 257, 5, 12, 0⟩, .moreAt 4163] := by decide +kernel

end Strace.Packed
