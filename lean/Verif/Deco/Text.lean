import Verif.Deco.Props
import Verif.Bits.SigProps
/-!
# C105: reading the texts, and what is wrong
-/
namespace Strace.Deco
open Strace.Base Strace.Lead

/-! ### Paths and devices -/

/-- the bytes of a path -/
def OkPath (p : List Nat) : Prop := ∀ b ∈ p, 0 < b ∧ b < 256

theorem byteHex_lt (c : Nat) (h : c < 256) : ∀ d ∈ Quote.byteHex c, d ≠ 60 := by
  intro d hd
  simp only [Quote.byteHex, List.mem_cons, List.not_mem_nil, or_false] at hd
  rcases hd with rfl | rfl <;> (unfold Quote.hexChar; split <;> omega)

theorem byteOct_lt (c : Nat) (b : Bool) (h : c < 256) : ∀ d ∈ Quote.byteOct c b, d ≠ 60 := by
  intro d hd
  unfold Quote.byteOct at hd
  split at hd
  · simp at hd; omega
  · split at hd
    · split at hd <;> simp at hd <;> omega
    · simp at hd; omega

theorem escOne_lt (x : Quote.XStyle) (c : Nat) (t : List Nat) (h : c < 256) : ∀ d ∈ Quote.escOne x [60, 62] c t, d ≠ 60 := by
  intro d hd
  unfold Quote.escOne at hd
  split at hd
  · simp at hd; omega
  repeat (split at hd; · simp at hd; omega)
  split at hd
  · rename_i h1
    simp at h1 hd
    rw [hd]; exact h1.2.1
  · split at hd
    · rcases List.mem_cons.mp hd with h2 | h2
      · omega
      · rcases List.mem_cons.mp h2 with h3 | h3
        · omega
        · exact byteHex_lt c h d h3
    · rcases List.mem_cons.mp hd with h2 | h2
      · omega
      · exact byteOct_lt c _ h d h2

theorem plainLoop_lt (s : Quote.Style) (l : List Nat) (h : ∀ c ∈ l, c < 256) : ∀ d ∈ (Quote.plainLoop s [60, 62] l).1, d ≠ 60 := by
  induction l with
  | nil => intro d hd; cases hd
  | cons c t ih =>
    intro d hd
    unfold Quote.plainLoop at hd
    split at hd
    · cases hd
    · split at hd
      · cases hd
      · rcases List.mem_append.mp hd with h2 | h2
        · exact escOne_lt s.x c t (h c (by simp)) d h2
        · exact ih (fun c hc => h c (by simp [hc])) d h2

theorem hexLoop_lt (s : Quote.Style) (l : List Nat) (h : ∀ c ∈ l, c < 256) : ∀ d ∈ (Quote.hexLoop s l).1, d ≠ 60 := by
  induction l with
  | nil => intro d hd; cases hd
  | cons c t ih =>
    intro d hd
    unfold Quote.hexLoop at hd
    split at hd
    · cases hd
    · rcases List.mem_cons.mp hd with h2 | h2
      · omega
      · rcases List.mem_cons.mp h2 with h3 | h3
        · omega
        · rcases List.mem_append.mp h3 with h4 | h4
          · exact byteHex_lt c (h c (by simp)) d h4
          · exact ih (fun c hc => h c (by simp [hc])) d h4

theorem quoted_angle (x : Quote.XStyle) (p : List Nat) (h : OkPath p) : ∀ d ∈ quoted x p, d ≠ 60 ∧ d ≠ 62 := by
  intro d hd
  refine ⟨?_, body_ne x p h d hd⟩
  unfold quoted Quote.stringQuote at hd
  simp only [Bool.false_eq_true, if_false, if_true, List.nil_append, List.append_nil] at hd
  split at hd
  · exact hexLoop_lt _ p (fun c hc => (h c hc).2) d hd
  · exact plainLoop_lt _ p (fun c hc => (h c hc).2) d hd

theorem unquote_quoted (x : Quote.XStyle) (p : List Nat) (h : OkPath p) : unquote (quoted x p) = p := by
  unfold unquote
  have := body_decode x p h
  rw [show quoted x p = body x p from rfl, this]; rfl

theorem upTo_run (x : Quote.XStyle) (p r : List Nat) (h : OkPath p) (c : Nat) (hc : c = 60 ∨ c = 62) :
    upToAngle (quoted x p ++ c :: r) = quoted x p :=
  takeWhile_run _ _ _ (fun d hd => by simp [quoted_angle x p h d hd])
    (fun d hd => by simp at hd; subst hd; rcases hc with rfl | rfl <;> rfl)

theorem digitsOf_dec (n : Nat) (r : List Nat) (hr : ∀ c, r.head? = some c → c < 48 ∨ 57 < c) : digitsOf (dec n ++ r) = dec n :=
  takeWhile_run _ _ _ (fun d hd => by simpa using dec_digit n d hd) (fun d hd => by have := hr d hd; simp; omega)

theorem readDev_text (d : Dev) (tty : Option Nat) (r : List Nat) : readDev (devText d ++ ptsText tty ++ 62 :: r) = (d, tty) := by
  obtain ⟨blk, ma, mi⟩ := d
  have key : ∀ kind : List Nat, 32 ∉ kind → readDev (kind ++ [32] ++ dec ma ++ [58] ++ dec mi ++ ptsText tty ++ 62 :: r) =
      (⟨decide (kind = txt "block"), ma, mi⟩, tty) := by
    intro kind hk
    have e : kind ++ [32] ++ dec ma ++ [58] ++ dec mi ++ ptsText tty ++ 62 :: r =
        kind ++ 32 :: (dec ma ++ 58 :: (dec mi ++ (ptsText tty ++ 62 :: r))) := by simp
    rw [e]
    unfold readDev
    rw [takeWhile_run (fun c => decide (c ≠ 32)) kind _ (fun d hd => by simp; intro e; rw [e] at hd; exact hk hd)
      (fun d hd => by simp at hd; subst hd; rfl)]
    simp only
    have d1 : (kind ++ 32 :: (dec ma ++ 58 :: (dec mi ++ (ptsText tty ++ 62 :: r)))).drop (kind.length + 1) =
        dec ma ++ 58 :: (dec mi ++ (ptsText tty ++ 62 :: r)) := by
      rw [← List.drop_drop, List.drop_left]; rfl
    have m1 : digitsOf (dec ma ++ 58 :: (dec mi ++ (ptsText tty ++ 62 :: r))) = dec ma :=
      digitsOf_dec ma _ (by intro c hc; simp at hc; omega)
    have d2 : (kind ++ 32 :: (dec ma ++ 58 :: (dec mi ++ (ptsText tty ++ 62 :: r)))).drop (kind.length + 1 + (dec ma).length + 1) =
        dec mi ++ (ptsText tty ++ 62 :: r) := by
      rw [show kind.length + 1 + (dec ma).length + 1 = (kind.length + 1) + ((dec ma).length + 1) by omega, ← List.drop_drop, d1,
        ← List.drop_drop, List.drop_left]; rfl
    have m2 : digitsOf (dec mi ++ (ptsText tty ++ 62 :: r)) = dec mi := by
      apply digitsOf_dec
      intro c hc
      cases tty with
      | none => simp [ptsText] at hc; omega
      | some n => simp [ptsText] at hc; omega
    rw [d1, m1, d2, m2, List.drop_left, readDec_dec, readDec_dec]
    congr 1
    cases tty with
    | none => rfl
    | some n =>
      rw [if_pos (by rfl)]
      congr 1
      have : (ptsText (some n) ++ 62 :: r).drop (txt " @/dev/pts/").length = dec n ++ 62 :: r := by
        have hl : (txt " @/dev/pts/").length = 11 := by decide +kernel
        rw [hl]; rfl
      rw [this, digitsOf_dec n _ (by intro c hc; simp at hc; omega), readDec_dec]
  cases blk with
  | true =>
    have := key [98, 108, 111, 99, 107] (by decide)
    rw [show decide (([98, 108, 111, 99, 107] : List Nat) = txt "block") = true by decide +kernel] at this
    exact this
  | false =>
    have := key [99, 104, 97, 114] (by decide)
    rw [show decide (([99, 104, 97, 114] : List Nat) = txt "block") = false by decide +kernel] at this
    exact this

/-- C105: the path of a file can be read back from what is shown, whatever characters it has, and whether it is deleted -/
theorem read_path (n : Bits.Names) (st : Bits.Style) (x : Quote.XStyle) (p : List Nat) (h : OkPath p) (del : Bool) (t : List Nat)
    (ht : render n st x (.path p del) = some t) : readSeen t = .file p del := by
  simp only [render, Option.some.injEq] at ht
  subst ht
  have e : ∀ r : List Nat, [60] ++ quoted x p ++ [62] ++ r = 60 :: (quoted x p ++ 62 :: r) := by intro r; simp
  rw [e]
  unfold readSeen
  rw [List.tail_cons]
  rw [upTo_run x p _ h 62 (Or.inr rfl)]
  have d : ∀ r : List Nat, (60 :: (quoted x p ++ 62 :: r)).drop (1 + (quoted x p).length) = 62 :: r := by
    intro r; rw [Nat.add_comm, List.drop_succ_cons, List.drop_left]
  rw [d]
  unfold seenOf
  rw [if_neg (by simp), unquote_quoted x p h]
  congr 1
  cases del <;> decide +kernel

/-- C105: so can a device: its path, its kind, its numbers, and the pseudo-terminal of a master -/
theorem read_dev (n : Bits.Names) (st : Bits.Style) (x : Quote.XStyle) (p : List Nat) (h : OkPath p) (d : Dev) (tty : Option Nat)
    (t : List Nat) (ht : render n st x (.dev p d tty) = some t) : readSeen t = .dev p d tty := by
  simp only [render, Option.some.injEq] at ht
  subst ht
  have e : [60] ++ quoted x p ++ [60] ++ devText d ++ ptsText tty ++ [62, 62] =
      60 :: (quoted x p ++ 60 :: (devText d ++ ptsText tty ++ 62 :: [62])) := by simp
  rw [e]
  unfold readSeen
  rw [List.tail_cons]
  rw [upTo_run x p _ h 60 (Or.inl rfl)]
  have dr : ∀ r : List Nat, (60 :: (quoted x p ++ 60 :: r)).drop (1 + (quoted x p).length) = 60 :: r := by
    intro r; rw [Nat.add_comm, List.drop_succ_cons, List.drop_left]
  rw [dr]
  unfold seenOf
  rw [if_pos (by rfl), unquote_quoted x p h, List.tail_cons, readDev_text]

/-! ### Signal sets -/

theorem testBit_lo (m i : Nat) (h : i < 32) : (m % 4294967296).testBit i = m.testBit i := by
  rw [show (4294967296 : Nat) = 2 ^ 32 from rfl, Nat.testBit_mod_two_pow]; simp [h]

theorem testBit_hi (m i : Nat) : (m / 4294967296).testBit i = m.testBit (32 + i) := by
  rw [show (4294967296 : Nat) = 2 ^ 32 from rfl, Nat.testBit_div_two_pow, Nat.add_comm]

theorem inMask_words (m i : Nat) (h : i < 64) : Bits.inMask [m % 4294967296, m / 4294967296] i = m.testBit i := by
  unfold Bits.inMask
  by_cases hi : i < 32
  · rw [show i / 32 = 0 by omega, show i % 32 = i by omega]
    exact testBit_lo m i hi
  · rw [show i / 32 = 1 by omega]
    show (m / 4294967296).testBit (i % 32) = _
    rw [testBit_hi, show 32 + i % 32 = i by omega]

/-- the signals of a set, or those that are not in it -/
def signals (m : Nat) (inv : Bool) : List Nat := ((List.range 64).filter fun i => m.testBit i != inv).map (· + 1)

/-- C105: the text of a signalfd has `signalfd:` and the signals of its set, or, after `~`, the others -/
theorem sig_text (n : Bits.Names) (st : Bits.Style) (x : Quote.XStyle) (m : Nat) (h : m < 2 ^ 64) (t : List Nat)
    (ht : render n st x (.sig (bytes8 m)) = some t) :
    ∃ inv : Bool, t = [60] ++ (txt "signalfd:" ++ (if inv then [126] else []) ++
      Bits.bracketed ((signals m inv).map (Bits.shown n st))) ++ [62] := by
  simp only [render] at ht
  have hlen : (bytes8 m).length = 8 := by simp [bytes8]
  rw [hlen, words_bytes8 m h] at ht
  cases hm : Bits.sprintsigmask 8 n st sigPfx [m % 4294967296, m / 4294967296] 8 with
  | none => rw [hm] at ht; simp at ht
  | some u =>
    rw [hm] at ht
    simp only [Option.map_some, Option.some.injEq] at ht
    have h' : m < 18446744073709551616 := h
    have := Bits.sprintsigmask_exact 8 n st sigPfx [m % 4294967296, m / 4294967296] 8 (by simp [Bits.nwords]) (by
      intro w hw
      simp only [List.mem_cons, List.not_mem_nil, or_false] at hw
      rcases hw with rfl | rfl <;> omega) u hm
    have hs : ∀ inv, Bits.sigList [m % 4294967296, m / 4294967296] (Bits.nwords 8 8) inv = signals m inv := by
      intro inv
      unfold Bits.sigList signals
      congr 1
      apply List.filter_congr
      intro i hi
      rw [List.mem_range] at hi
      have hi' : i < 64 := hi
      rw [inMask_words m i hi']
    refine ⟨Bits.inverted [m % 4294967296, m / 4294967296] (Bits.nwords 8 8), ?_⟩
    have hp : txt "signalfd:" = sigPfx := by decide +kernel
    rw [← ht, hp, this, hs]

/-! ### Counters -/

theorem hex_zero (c : Nat) : (hex c).head? = some 48 ↔ c = 0 := by
  constructor
  · intro h
    have key : ∀ c, 0 < c → (hex c).head? ≠ some 48 := by
      intro c
      induction c using Nat.strongRecOn with
      | ind c ih =>
        intro h0
        rw [hex]
        split
        · rename_i h16
          unfold Quote.hexChar
          split
          · simp; omega
          · simp; omega
        · have := ih (c / 16) (by omega) (by omega)
          obtain ⟨a, l, e⟩ := List.exists_cons_of_ne_nil (hex_ne_nil (c / 16))
          rw [e] at this ⊢
          simpa using this
    by_contra hc
    exact key c (by omega) h
  · intro h; subst h; decide +kernel

theorem readCount_text (c : Nat) : readCount ((if (hex c).head? ≠ some 48 then [48, 120] else []) ++ hex c) = c := by
  by_cases h : c = 0
  · subst h; decide +kernel
  · rw [if_pos (by rw [ne_eq, hex_zero]; exact h)]
    unfold readCount
    rw [if_pos (by exact ⟨hex c, rfl⟩)]
    show readHex (hex c) = c
    exact readHex_hex c

theorem optField_some (name r : List Nat) (n : Nat) (hr : ∀ c, r.head? = some c → c < 48 ∨ 57 < c) :
    optField name (name ++ (dec n ++ r)) = (some n, r) := by
  unfold optField
  rw [if_pos ⟨dec n ++ r, rfl⟩, List.drop_left, digitsOf_dec n r hr, readDec_dec, List.drop_left]

theorem optField_none (name r : List Nat) (h : ¬ name <+: r) : optField name r = (none, r) := by
  unfold optField; rw [if_neg h]

theorem t_idf : txt ", eventfd-id=" = [44, 32, 101, 118, 101, 110, 116, 102, 100, 45, 105, 100, 61] := by decide +kernel
theorem t_semf : txt ", eventfd-semaphore=" =
    [44, 32, 101, 118, 101, 110, 116, 102, 100, 45, 115, 101, 109, 97, 112, 104, 111, 114, 101, 61] := by decide +kernel
theorem t_evf : (txt "<{eventfd-count=").length = 16 := by decide +kernel

theorem readIdSem_text (id sem : Option Nat) :
    readIdSem (fieldText [101, 118, 101, 110, 116, 102, 100, 45, 105, 100] id ++
      fieldText [101, 118, 101, 110, 116, 102, 100, 45, 115, 101, 109, 97, 112, 104, 111, 114, 101] sem ++ [125, 62]) = (id, sem) := by
  have hsem : optField (txt ", eventfd-semaphore=")
      (fieldText [101, 118, 101, 110, 116, 102, 100, 45, 115, 101, 109, 97, 112, 104, 111, 114, 101] sem ++ [125, 62]) = (sem, [125, 62]) := by
    cases sem with
    | none => rw [t_semf]; exact optField_none _ _ (by decide)
    | some n =>
      have := optField_some (txt ", eventfd-semaphore=") [125, 62] n (by intro c hc; simp at hc; omega)
      rw [t_semf] at this ⊢
      simpa [fieldText] using this
  have hid : optField (txt ", eventfd-id=") (fieldText [101, 118, 101, 110, 116, 102, 100, 45, 105, 100] id ++
      fieldText [101, 118, 101, 110, 116, 102, 100, 45, 115, 101, 109, 97, 112, 104, 111, 114, 101] sem ++ [125, 62]) =
      (id, fieldText [101, 118, 101, 110, 116, 102, 100, 45, 115, 101, 109, 97, 112, 104, 111, 114, 101] sem ++ [125, 62]) := by
    cases id with
    | none =>
      rw [t_idf]
      apply optField_none
      cases sem with
      | none => decide
      | some n =>
        intro h
        simp only [fieldText, List.nil_append, List.append_assoc] at h
        have := h.length_le
        rw [List.prefix_iff_eq_take] at h
        simp at h
    | some n =>
      have := optField_some (txt ", eventfd-id=")
        (fieldText [101, 118, 101, 110, 116, 102, 100, 45, 115, 101, 109, 97, 112, 104, 111, 114, 101] sem ++ [125, 62]) n (by
          intro c hc
          cases sem with
          | none => simp [fieldText] at hc; omega
          | some m => simp [fieldText] at hc; omega)
      rw [t_idf] at this ⊢
      simpa [fieldText, List.append_assoc] using this
  unfold readIdSem
  rw [hid, hsem]

/-- C105: the fields of an eventfd can be read back -/
theorem read_event (n : Bits.Names) (st : Bits.Style) (x : Quote.XStyle) (c : Nat) (id sem : Option Nat) (t : List Nat)
    (ht : render n st x (.event (hex c) id sem) = some t) : readEvent t = (c, id, sem) := by
  simp only [render, Option.some.injEq] at ht
  subst ht
  generalize htail : fieldText [101, 118, 101, 110, 116, 102, 100, 45, 105, 100] id ++
      fieldText [101, 118, 101, 110, 116, 102, 100, 45, 115, 101, 109, 97, 112, 104, 111, 114, 101] sem ++ [125, 62] = tl
  generalize hcount : (if (hex c).head? ≠ some 48 then [48, 120] else []) ++ hex c = cnt
  have e : [60, 123] ++ [101, 118, 101, 110, 116, 102, 100, 45, 99, 111, 117, 110, 116, 61] ++
      (if (hex c).head? ≠ some 48 then [48, 120] else []) ++ hex c ++
      fieldText [101, 118, 101, 110, 116, 102, 100, 45, 105, 100] id ++
      fieldText [101, 118, 101, 110, 116, 102, 100, 45, 115, 101, 109, 97, 112, 104, 111, 114, 101] sem ++ [125, 62] =
      [60, 123, 101, 118, 101, 110, 116, 102, 100, 45, 99, 111, 117, 110, 116, 61] ++ (cnt ++ tl) := by
    rw [← htail, ← hcount]; simp only [List.append_assoc, List.cons_append, List.nil_append]
  rw [e]
  unfold readEvent
  have hd : ([60, 123, 101, 118, 101, 110, 116, 102, 100, 45, 99, 111, 117, 110, 116, 61] ++ (cnt ++ tl)).drop
      (txt "<{eventfd-count=").length = cnt ++ tl := by rw [t_evf]; rfl
  have hu : upToSep (cnt ++ tl) = cnt := by
    apply takeWhile_run
    · intro d hdm
      rw [← hcount] at hdm
      have : d ≠ 44 ∧ d ≠ 125 := by
        rcases List.mem_append.mp hdm with h | h
        · split at h
          · simp at h; omega
          · cases h
        · have := hex_chars c d h
          unfold HexCh at this
          omega
      simp [this]
    · intro d hdm
      rw [← htail] at hdm
      have : d = 44 ∨ d = 125 := by
        cases id with
        | some i => simp [fieldText] at hdm; omega
        | none =>
          cases sem with
          | some s => simp [fieldText] at hdm; omega
          | none => simp [fieldText] at hdm; omega
      rcases this with rfl | rfl <;> rfl
  simp only [hd, hu, List.drop_left]
  rw [← hcount, readCount_text, ← htail, readIdSem_text]

/-- C105: `<pid:8>` has the number of the process -/
theorem read_pid (n : Bits.Names) (st : Bits.Style) (x : Quote.XStyle) (p : Nat) (t : List Nat)
    (ht : render n st x (.pid p) = some t) : (optField (txt "<pid:") t) = (some p, txt ">") := by
  simp only [render, Option.some.injEq] at ht
  subst ht
  have := optField_some (txt "<pid:") (txt ">") p (by intro c hc; have : txt ">" = [62] := by decide +kernel
                                                      rw [this] at hc; simp at hc; omega)
  have e1 : txt "<pid:" = [60, 112, 105, 100, 58] := by decide +kernel
  have e2 : txt ">" = [62] := by decide +kernel
  rw [e1, e2] at this ⊢
  simpa using this

/-- C105: what is known of a socket comes as it is -/
theorem read_plain (n : Bits.Names) (st : Bits.Style) (x : Quote.XStyle) (t : List Nat) :
    render n st x (.plain t) = some (txt "<" ++ t ++ txt ">") := by
  have e1 : txt "<" = [60] := by decide +kernel
  have e2 : txt ">" = [62] := by decide +kernel
  rw [e1, e2]; rfl

/-! ### Examples and what is wrong -/

def noWorld : World := ⟨fun _ _ => none, fun _ _ => none, fun _ _ => none, fun _ => none, fun _ _ => none⟩

def all : Kinds := ⟨true, true, true, true, true, true⟩

/-- descriptor 3 of process 7 is an eventfd, with other lines around -/
def evWorld : World :=
  { noWorld with
    link := fun _ _ => some (txt "anon_inode:[eventfd]", false)
    fdinfo := fun _ _ => some (txt "pos:\t0\neventfd-count:               1f\neventfd-id: 3\neventfd-semaphore: 1\n") }

theorem ev_has : Has evWorld 7 3 (.event 31 (some 3) (some 1)) := by
  refine ⟨by simp [Obj.Ok], rfl, trivial,
    [txt "pos:\t0", txt "eventfd-count:               1f", txt "eventfd-id: 3", txt "eventfd-semaphore: 1"], by decide +kernel, by decide +kernel,
    ⟨15, ?_⟩, ?_, ?_⟩
  · refine ⟨by decide +kernel, by decide +kernel⟩
  · refine ⟨by decide +kernel, by decide +kernel⟩
  · refine ⟨by decide +kernel, by decide +kernel⟩

example : printfd evWorld all 7 3 = .event (hex 31) (some 3) (some 1) := shown_as_wanted evWorld all 7 3 (by decide) _ ev_has

example (n : Bits.Names) (st : Bits.Style) (x : Quote.XStyle) : render n st x (.event (hex 31) (some 3) (some 1)) =
    some (txt "<{eventfd-count=0x1f, eventfd-id=3, eventfd-semaphore=1}>") := by
  have : hex 31 = [49, 102] := by decide +kernel
  simp only [render, this]
  decide +kernel

/-- process 7 asks process 8 for its descriptor 5, a UNIX socket with inode 20; the own descriptor 5 of process 7 is a UDP
socket.  The kernel tells nothing of inode 20, as when the socket is in another network namespace, but it tells the name of the protocol -/
def twoWorld : World :=
  { link := fun p fd => if p = 7 ∧ fd = 3 then some (txt "anon_inode:[pidfd]", false)
      else if p = 8 ∧ fd = 5 then some (txt "socket:[20]", false)
      else if p = 8 ∧ fd = 6 then some (txt "/dev/ptmx", false) else none
    fdinfo := fun p fd => if p = 7 ∧ fd = 3 then some (txt "Pid:\t8\n")
      else if p = 8 ∧ fd = 6 then some (txt "tty-index:\t2\n")
      else if p = 7 ∧ fd = 6 then some (txt "tty-index:\t9\n") else some []
    proto := fun p fd => if p = 7 ∧ fd = 5 then some (txt "UDP") else if p = 8 ∧ fd = 5 then some (txt "UNIX-STREAM") else none
    stat := fun p => if p = txt "/dev/ptmx" then some ⟨false, 5, 2⟩ else none
    details := fun i n => n.map fun m => m ++ txt ":[" ++ dec i ++ txt "]" }

/-- **C105 is false for the target of pidfd_getfd (and for kcmp).**  The details of the socket of another process are looked up with
the protocol of the caller's own descriptor of that number: a UNIX socket is shown as `UDP:[20]` -/
theorem other_socket : Has twoWorld 7 3 (.pidfd none 8) ∧ Has twoWorld 8 5 (.sock 20) ∧
    getfdTarget twoWorld all 7 3 5 = .plain (txt "UDP:[20]") ∧
    wanted all (known twoWorld 8 5 (.sock 20)) (.sock 20) = .plain (txt "UNIX-STREAM:[20]") := by
  refine ⟨⟨by simp [Obj.Ok], by decide +kernel, trivial, [txt "Pid:\t8"], by decide +kernel, by decide +kernel, ?_⟩,
    ⟨by simp [Obj.Ok], by decide +kernel, trivial, [], by simp, by decide +kernel, trivial⟩, by decide +kernel, by decide +kernel⟩
  exact ⟨by decide +kernel, by decide +kernel⟩

/-- … and the number of a pseudo-terminal is that of the caller's own descriptor -/
theorem other_tty : Has twoWorld 8 6 (.dev (txt "/dev/ptmx") false ⟨false, 5, 2⟩ (some 2)) ∧
    getfdTarget twoWorld all 7 3 6 = .dev (txt "/dev/ptmx") ⟨false, 5, 2⟩ (some 9) := by
  refine ⟨⟨⟨by decide +kernel, ?_⟩, by decide +kernel, by simp only [NameHolds]; decide +kernel, [txt "tty-index:\t2"], by decide +kernel, by decide +kernel, ?_⟩, by decide +kernel⟩
  · intro n hn; injection hn with hn; subst hn; exact ⟨⟨rfl, rfl, rfl⟩, by decide⟩
  · exact ⟨by decide +kernel, by decide +kernel⟩

/-- the file that is open was deleted, and a device has its name now -/
def renamedWorld : World :=
  { noWorld with
    link := fun _ _ => some (txt "/dev/shm/x", true)
    fdinfo := fun _ _ => some []
    stat := fun p => if p = txt "/dev/shm/x" then some ⟨false, 1, 3⟩ else none }

/-- the condition `NameHolds` is needed: a device is looked for by the name of the file, so a file that is no device is shown as
one when a device has got its name (or has it in strace's root directory or mount namespace) -/
theorem by_name : printfd renamedWorld all 7 3 = .dev (txt "/dev/shm/x") ⟨false, 1, 3⟩ none := by decide +kernel

end Strace.Deco
