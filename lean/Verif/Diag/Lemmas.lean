import Verif.Diag.Spec
import Mathlib.Tactic.Ring
/-! # Reading messages of netlink -/
namespace Strace.Diag
open Strace.Sized

/-! ### Fields -/

theorem leBytes_length (n k : Nat) : (leBytes n k).length = n := by
  induction n generalizing k with
  | zero => rfl
  | succ n ih => simp [leBytes, ih]

theorem le_leBytes (n k : Nat) (h : k < 256 ^ n) : le (leBytes n k) = k := by
  induction n generalizing k with
  | zero => simp [leBytes, le] at *; omega
  | succ n ih =>
    rw [leBytes, le, ih _ (by rw [Nat.pow_succ] at h; omega)]
    show k % 256 + 256 * (k / 256) = k
    omega

theorem slice (pre x post : List Byte) (off n : Nat) (ho : pre.length = off) (hn : x.length = n) :
    ((pre ++ (x ++ post)).drop off).take n = x := by
  subst ho hn
  rw [List.drop_left, List.take_left]

theorem fld_at (pre x post : List Byte) (off n : Nat) (ho : pre.length = off) (hn : x.length = n) :
    fld (pre ++ (x ++ post)) off n = le x := by rw [fld, slice pre x post off n ho hn]

theorem rd_at (pre x post : List Byte) (off n : Nat) (ho : pre.length = off) (hn : x.length = n) :
    rd (pre ++ (x ++ post)) off n = some (le x) := by
  rw [rd, if_pos (by simp; omega), fld_at pre x post off n ho hn]

theorem rdBytes_at (pre x post : List Byte) (off n : Nat) (ho : pre.length = off) (hn : x.length = n) :
    rdBytes (pre ++ (x ++ post)) off n = some x := by
  rw [rdBytes, if_pos (by simp; omega), slice pre x post off n ho hn]

theorem le_singleton (b : Byte) : le [b] = b.val := by simp [le]

theorem rdBe_at (pre post : List Byte) (k off : Nat) (ho : pre.length = off) (hk : k < 65536) :
    rdBe (pre ++ (port k ++ post)) off = some k := by
  have h1 : rd (pre ++ (port k ++ post)) off 1 = some (k / 256 % 256) := by
    rw [show pre ++ (port k ++ post) = pre ++ ([byte (k / 256)] ++ ([byte k] ++ post)) by simp [port],
      rd_at pre [byte (k / 256)] _ off 1 ho rfl, le_singleton]; rfl
  have h2 : rd (pre ++ (port k ++ post)) (off + 1) 1 = some (k % 256) := by
    rw [show pre ++ (port k ++ post) = (pre ++ [byte (k / 256)]) ++ ([byte k] ++ post) by simp [port],
      rd_at (pre ++ [byte (k / 256)]) [byte k] _ (off + 1) 1 (by simp [ho]) rfl, le_singleton]; rfl
  rw [rdBe, h1, h2]
  show some (k / 256 % 256 * 256 + k % 256) = some k
  congr 1; omega

theorem rd_isSome (b : List Byte) (off n : Nat) (h : off + n ≤ b.length) : rd b off n = some (fld b off n) := if_pos h

theorem rdBe_isSome (b : List Byte) (off : Nat) (h : off + 2 ≤ b.length) :
    rdBe b off = some (fld b off 1 * 256 + fld b (off + 1) 1) := by
  rw [rdBe, rd_isSome b off 1 (by omega), rd_isSome b (off + 1) 1 (by omega)]

/-! ### Messages -/

/-- the parts of a message -/
structure Msg where
  t : Nat
  m : List Byte
  p : List Byte

def Msg.Ok (x : Msg) : Prop := x.t < 65536 ∧ x.m.length = 10 ∧ x.p.length < 2 ^ 31

def Msg.enc (x : Msg) : List Byte := message x.t x.m x.p

theorem enc_eq (x : Msg) (rest : List Byte) :
    x.enc ++ rest = [] ++ (leBytes 4 (16 + x.p.length) ++ (leBytes 2 x.t ++ x.m ++ x.p ++ fill x.p.length ++ rest)) := by
  simp [Msg.enc, message]

theorem fill_length (n : Nat) : (fill n).length = (4 - n % 4) % 4 := by simp [fill]

theorem enc_length (x : Msg) (hx : x.Ok) : x.enc.length = (16 + x.p.length + 3) / 4 * 4 := by
  simp only [Msg.enc, message, List.length_append, leBytes_length, hx.2.1, fill_length]
  omega

theorem enc_len_fld (x : Msg) (hx : x.Ok) (rest : List Byte) : fld (x.enc ++ rest) 0 4 = 16 + x.p.length := by
  rw [enc_eq, fld_at [] _ _ 0 4 rfl (leBytes_length 4 _), le_leBytes _ _ (by have := hx.2.2; omega)]

theorem enc_typ_fld (x : Msg) (hx : x.Ok) (rest : List Byte) : fld (x.enc ++ rest) 4 2 = x.t := by
  rw [show x.enc ++ rest = leBytes 4 (16 + x.p.length) ++ (leBytes 2 x.t ++ (x.m ++ x.p ++ fill x.p.length ++ rest)) by
    simp [Msg.enc, message], fld_at _ _ _ _ _ (leBytes_length 4 _) (leBytes_length 2 _), le_leBytes _ _ (by have := hx.1; omega)]

theorem enc_payload (x : Msg) (hx : x.Ok) (rest : List Byte) : ((x.enc ++ rest).take (16 + x.p.length)).drop 16 = x.p := by
  rw [List.drop_take, show x.enc ++ rest =
    (leBytes 4 (16 + x.p.length) ++ leBytes 2 x.t ++ x.m) ++ (x.p ++ (fill x.p.length ++ rest)) by simp [Msg.enc, message]]
  exact slice _ _ _ _ _ (by simp [leBytes_length, hx.2.1]) (by omega)

theorem nlmsgOk_enc (x : Msg) (hx : x.Ok) (rest : List Byte) : nlmsgOk (x.enc ++ rest) = true := by
  have h := enc_length x hx
  simp only [nlmsgOk, enc_len_fld x hx, List.length_append, Bool.and_eq_true, decide_eq_true_eq]
  omega

theorem walk_nil {S : Type} (typ : Nat) (parse : S → List Byte → Option (S × Int)) (s : S) : walk typ parse s [] = some (s, none) := by
  rw [walk.eq_def, dif_neg (by simp [nlmsgOk])]

/-- the next step after a message has been parsed -/
def andThen {S : Type} (k : S → Option (S × Option Bool)) : Option (S × Int) → Option (S × Option Bool)
  | none => none
  | some (s, rc) => if rc > 0 then some (s, some true) else if rc < 0 then some (s, some false) else k s

theorem walk_cons {S : Type} (typ : Nat) (parse : S → List Byte → Option (S × Int)) (s : S) (x : Msg) (hx : x.Ok) (rest : List Byte) :
    walk typ parse s (x.enc ++ rest) =
      if x.t ≠ typ then some (s, some false) else andThen (fun s' => walk typ parse s' rest) (parse s x.p) := by
  rw [walk.eq_def, dif_pos (nlmsgOk_enc x hx rest), enc_typ_fld x hx, enc_len_fld x hx, enc_payload x hx,
    ← enc_length x hx, List.drop_left]
  by_cases h : x.t = typ
  · simp only [h, ne_eq, not_true_eq_false, if_false]
    cases hp : parse s x.p with
    | none => rfl
    | some r => obtain ⟨s', rc⟩ := r; rfl
  · simp [h]

/-- messages one after the other -/
def seq {S : Type} (typ : Nat) (parse : S → List Byte → Option (S × Int)) : S → List Msg → Option (S × Option Bool)
  | s, [] => some (s, none)
  | s, x :: l => if x.t ≠ typ then some (s, some false) else andThen (fun s' => seq typ parse s' l) (parse s x.p)

theorem walk_seq {S : Type} (typ : Nat) (parse : S → List Byte → Option (S × Int)) (s : S) (l : List Msg) (h : ∀ x ∈ l, x.Ok) :
    walk typ parse s (l.map Msg.enc).flatten = seq typ parse s l := by
  induction l generalizing s with
  | nil => exact walk_nil typ parse s
  | cons x l ih =>
    rw [List.map_cons, List.flatten_cons, walk_cons typ parse s x (h x (by simp)), seq]
    congr 2
    funext s'
    exact ih s' fun y hy => h y (by simp [hy])

theorem seq_append {S : Type} (typ : Nat) (parse : S → List Byte → Option (S × Int)) (s : S) (l l' : List Msg) :
    seq typ parse s (l ++ l') =
      match seq typ parse s l with
      | none => none
      | some (s', none) => seq typ parse s' l'
      | some (s', some r) => some (s', some r) := by
  induction l generalizing s with
  | nil => rfl
  | cons x l ih =>
    rw [List.cons_append, seq, seq]
    by_cases h : x.t = typ
    · simp only [h, ne_eq, not_true_eq_false, if_false]
      cases hp : parse s x.p with
      | none => rfl
      | some r =>
        obtain ⟨s', rc⟩ := r
        simp only [andThen]
        by_cases h1 : rc > 0
        · simp [h1]
        · by_cases h2 : rc < 0
          · simp [h1, h2]
          · simp only [h1, h2, if_false]; exact ih s'
    · simp [h]

/-- datagrams one after the other: the result is that of the messages; if it is that of the last message or there is none, no
datagram is left -/
theorem receive_seq {S : Type} (typ : Nat) (parse : S → List Byte → Option (S × Int)) (s : S) (gs : List (List Msg))
    (h : ∀ g ∈ gs, g ≠ [] ∧ (∀ x ∈ g, x.Ok) ∧ (g.map Msg.enc).flatten.length ≤ 8192) :
    match seq typ parse s gs.flatten with
    | none => receive typ parse s (gs.map fun g => (g.map Msg.enc).flatten) = none
    | some (s', none) => receive typ parse s (gs.map fun g => (g.map Msg.enc).flatten) = some (s', false, [])
    | some (s', some r) => ∃ left, receive typ parse s (gs.map fun g => (g.map Msg.enc).flatten) = some (s', r, left) ∧
      ((∃ s'', seq typ parse s gs.flatten.dropLast = some (s'', none)) → left = []) := by
  induction gs generalizing s with
  | nil => simp [seq, receive]
  | cons g gs ih =>
    obtain ⟨hne, hok, hlen⟩ := h g (by simp)
    have hgs : ∀ g' ∈ gs, g' ≠ [] ∧ (∀ x ∈ g', x.Ok) ∧ (g'.map Msg.enc).flatten.length ≤ 8192 := fun g' hg' => h g' (by simp [hg'])
    have htk : (g.map Msg.enc).flatten.take 8192 = (g.map Msg.enc).flatten := List.take_of_length_le hlen
    have hnl : nlmsgOk (g.map Msg.enc).flatten = true := by
      cases g with
      | nil => exact absurd rfl hne
      | cons x l => rw [List.map_cons, List.flatten_cons]; exact nlmsgOk_enc x (hok x (by simp)) _
    rw [List.flatten_cons, seq_append]
    simp only [List.map_cons, receive, htk, hnl, if_true, walk_seq typ parse s g hok]
    cases hg : seq typ parse s g with
    | none => simp
    | some r =>
      obtain ⟨s1, o⟩ := r
      cases o with
      | none =>
        simp only []
        have := ih s1 hgs
        cases h2 : seq typ parse s1 gs.flatten with
        | none => rw [h2] at this; simpa using this
        | some r2 =>
          obtain ⟨s2, o2⟩ := r2
          rw [h2] at this
          cases o2 with
          | none => simpa using this
          | some b =>
            simp only [] at this ⊢
            obtain ⟨left, hl, hd⟩ := this
            refine ⟨left, hl, fun ⟨s'', hs''⟩ => hd ⟨s'', ?_⟩⟩
            by_cases hnil : gs.flatten = []
            · rw [hnil] at h2; simp [seq] at h2
            · rw [List.dropLast_append_of_ne_nil hnil, seq_append, hg] at hs''
              exact hs''
      | some b =>
        simp only []
        refine ⟨_, rfl, fun ⟨s'', hs''⟩ => ?_⟩
        cases gs with
        | nil => rfl
        | cons g' gs' =>
          exfalso
          have hnil : (g' :: gs').flatten ≠ [] := by
            have := (hgs g' (by simp)).1
            simp [this]
          rw [List.dropLast_append_of_ne_nil hnil, seq_append, hg] at hs''
          simp at hs''

theorem split_groups {α β : Type} (f : α → β) (l : List α) (gs : List (List β)) (h : gs.flatten = l.map f) :
    ∃ gs' : List (List α), gs = gs'.map (List.map f) ∧ gs'.flatten = l := by
  induction gs generalizing l with
  | nil => exact ⟨[], rfl, by simpa using h⟩
  | cons g gs ih =>
    rw [List.flatten_cons] at h
    obtain ⟨l1, l2, rfl, h1, h2⟩ := List.map_eq_append_iff.1 h.symm
    obtain ⟨gs', rfl, h4⟩ := ih l2 h2.symm
    exact ⟨l1 :: gs', by simp [h1], by simp [h4]⟩

/-- what comes of an answer -/
theorem receive_answer {S : Type} (typ : Nat) (parse : S → List Byte → Option (S × Int)) (s : S) (l : List Msg) (hl : ∀ x ∈ l, x.Ok)
    (ds : List (List Byte)) (hans : Answer typ (l.map Msg.enc) ds) :
    match seq typ parse s l with
    | none => receive typ parse s ds = none
    | some (s', none) => receive typ parse s ds = some (s', false, [])
    | some (s', some r) => ∃ left, receive typ parse s ds = some (s', r, left) := by
  obtain ⟨groups, fin, rfl, hflat, hgr, hfin⟩ := hans
  have hfin' : ∃ f : List Msg, fin = f.map Msg.enc ∧ (∀ x ∈ f, x.Ok) ∧ (f = [] ∨ ∃ y : Msg, f = [y] ∧ y.t ≠ typ) := by
    rcases hfin with rfl | ⟨t, m, p, h1, h2, h3, h4, rfl⟩
    · exact ⟨[], rfl, by simp, Or.inl rfl⟩
    · exact ⟨[⟨t, m, p⟩], rfl, by simp [Msg.Ok, h2, h3]; omega, Or.inr ⟨_, rfl, h1⟩⟩
  obtain ⟨f, rfl, hf, hft⟩ := hfin'
  rw [← List.map_append] at hflat
  obtain ⟨gs, rfl, hgs⟩ := split_groups _ _ _ hflat
  have hok : ∀ g ∈ gs, g ≠ [] ∧ (∀ x ∈ g, x.Ok) ∧ (g.map Msg.enc).flatten.length ≤ 8192 := by
    intro g hg
    obtain ⟨h1, h2⟩ := hgr (g.map Msg.enc) (List.mem_map_of_mem hg)
    refine ⟨by simpa using h1, fun x hx => ?_, h2⟩
    have : x ∈ gs.flatten := List.mem_flatten_of_mem hg hx
    rw [hgs] at this
    rcases List.mem_append.1 this with h | h
    · exact hl x h
    · exact hf x h
  have key := receive_seq typ parse s gs hok
  rw [hgs, seq_append] at key
  rw [List.map_map]
  show (match seq typ parse s l with
    | none => receive typ parse s (gs.map fun g => (g.map Msg.enc).flatten) = none
    | some (s', none) => receive typ parse s (gs.map fun g => (g.map Msg.enc).flatten) = some (s', false, [])
    | some (s', some r) => ∃ left, receive typ parse s (gs.map fun g => (g.map Msg.enc).flatten) = some (s', r, left))
  cases h1 : seq typ parse s l with
  | none => rw [h1] at key; exact key
  | some r =>
    obtain ⟨s1, o⟩ := r
    rw [h1] at key
    cases o with
    | some b =>
      simp only [] at key ⊢
      obtain ⟨left, hl, _⟩ := key
      exact ⟨left, hl⟩
    | none =>
      simp only [] at key ⊢
      rcases hft with rfl | ⟨y, rfl, hy⟩
      · simpa [seq] using key
      · simp only [seq, hy, ne_eq, not_false_eq_true, if_true] at key
        obtain ⟨left, hl, hd⟩ := key
        rw [hl, hd ⟨s1, by simpa using h1⟩]

end Strace.Diag
