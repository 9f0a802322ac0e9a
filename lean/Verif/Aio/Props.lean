import Verif.Aio.Spec
import Verif.Memc.Props

/-!
# Proofs about the calls of asynchronous input and output
-/
namespace Strace.Aio

open Strace.Prctl (Mem umoven number)
open Strace.Aio.Spec

theorem word_eq : Spec.word = Memc.Spec.word := rfl

theorem signed_is (w x : Nat) (hw : 0 < w) : Signed w x (signed w x) := by
  obtain ⟨w, rfl⟩ : ∃ k, w = k + 1 := ⟨w - 1, by omega⟩
  unfold Signed signed
  rw [Nat.add_sub_cancel]
  have h := Nat.div_add_mod x (2 ^ (w + 1))
  have h2 := Nat.mod_lt x (show 0 < 2 ^ (w + 1) from Nat.pow_pos (by decide))
  have e : (2 : Int) ^ w = ((2 ^ w : Nat) : Int) := by norm_cast
  have e1 : (2 : Int) ^ (w + 1) = ((2 ^ (w + 1) : Nat) : Int) := by norm_cast
  have ed : 2 ^ (w + 1) = 2 * 2 ^ w := by rw [Nat.pow_succ, Nat.mul_comm]
  rw [e, e1]
  generalize x / 2 ^ (w + 1) = q at h
  generalize x % 2 ^ (w + 1) = r at *
  have hx : (x : Int) = ((2 ^ (w + 1) : Nat) : Int) * (q : Int) + (r : Int) := by rw [← h]; push_cast; rfl
  generalize hW : 2 ^ (w + 1) = W at *
  generalize 2 ^ w = H at *
  split
  · exact ⟨by omega, by omega, (q : Int), by rw [hx, Int.mul_comm]; omega⟩
  · refine ⟨by omega, by omega, (q : Int) + 1, ?_⟩
    rw [hx, Int.add_mul, Int.mul_comm]
    omega

theorem signed_unique {w x : Nat} {u v : Int} (hw : w = 64 ∨ w = 32) (hu : Signed w x u) (hv : Signed w x v) : u = v := by
  obtain ⟨a1, a2, q, a3⟩ := hu
  obtain ⟨b1, b2, r, b3⟩ := hv
  rcases hw with h | h <;> subst h <;> simp only [Nat.reduceSub] at a1 a2 b1 b2 <;> omega

theorem iocb_field {m : Mem} {p : Nat} {l : List Nat} (h : umoven m p 64 = some l) :
    (iocbOf l).data = field m p .data ∧ (iocbOf l).key = field m p .key ∧ (iocbOf l).rwFlags = field m p .rwFlags
    ∧ (iocbOf l).opcode = field m p .opcode ∧ (iocbOf l).reqprio = field m p .reqprio
    ∧ (iocbOf l).fildes = field m p .fildes ∧ (iocbOf l).buf = field m p .buf ∧ (iocbOf l).nbytes = field m p .nbytes
    ∧ (iocbOf l).offset = field m p .offset ∧ (iocbOf l).flags = field m p .flags ∧ (iocbOf l).resfd = field m p .resfd := by
  have key : ∀ o w, o + w ≤ 64 → number ((l.drop o).take w) = Spec.word m (p + o) w := by
    intro o w hw
    rw [word_eq]
    exact Memc.number_word (Memc.umoven_part h hw)
  refine ⟨key 0 8 (by decide), key 8 4 (by decide), key 12 4 (by decide), key 16 2 (by decide), key 18 2 (by decide),
    key 20 4 (by decide), key 24 8 (by decide), key 32 8 (by decide), key 40 8 (by decide), key 56 4 (by decide),
    key 60 4 (by decide)⟩

theorem and_one (x : Nat) : x &&& 1 ≠ 0 ↔ x.testBit 0 = true := by
  rw [Memc.and_ne_zero_iff]
  constructor
  · rintro ⟨i, h1, h2⟩
    cases i with
    | zero => exact h1
    | succ i =>
      rw [Nat.testBit_lt_two_pow (Nat.lt_of_lt_of_le (show 1 < 2 ^ 1 by decide) (Nat.pow_le_pow_right (by decide) (by omega)))]
        at h2
      cases h2
  · exact fun h => ⟨0, h, by decide⟩

theorem and_two (x : Nat) : x &&& 2 ≠ 0 ↔ x.testBit 1 = true := by
  rw [Memc.and_ne_zero_iff]
  constructor
  · rintro ⟨i, h1, h2⟩
    match i with
    | 0 => exact absurd h2 (by decide)
    | 1 => exact h1
    | i + 2 =>
      rw [Nat.testBit_lt_two_pow (Nat.lt_of_lt_of_le (show 2 < 2 ^ 2 by decide) (Nat.pow_le_pow_right (by decide) (by omega)))]
        at h2
      cases h2
  · exact fun h => ⟨1, h, by decide⟩

/-- The values of a request, from its fields. -/
def Cb (m : Mem) (p : Nat) (cb : Iocb) : Prop :=
  cb.data = field m p .data ∧ cb.key = field m p .key ∧ cb.rwFlags = field m p .rwFlags
    ∧ cb.opcode = field m p .opcode ∧ cb.reqprio = field m p .reqprio
    ∧ cb.fildes = field m p .fildes ∧ cb.buf = field m p .buf ∧ cb.nbytes = field m p .nbytes
    ∧ cb.offset = field m p .offset ∧ cb.flags = field m p .flags ∧ cb.resfd = field m p .resfd

/-- One of what may be shown. -/
def Ok (m : Mem) (p : Nat) (t : Tok) : Prop :=
  (∃ f v, t = .fld f v ∧ Value m p f v)
    ∨ (t = .content (field m p .buf) (field m p .nbytes) ∧ field m p .opcode = 1)
    ∨ (t = .iov (field m p .buf) (field m p .nbytes) false ∧ field m p .opcode = 7)
    ∨ (t = .iov (field m p .buf) (field m p .nbytes) true ∧ field m p .opcode = 8)

theorem header_ok {m : Mem} {p : Nat} {cb : Iocb} (h : Cb m p cb) : ∀ t ∈ header cb, Ok m p t := by
  obtain ⟨h1, h2, h3, h4, h5, h6, h7, h8, h9, h10, h11⟩ := h
  intro t ht
  left
  simp only [header, List.mem_append, List.mem_singleton] at ht
  rcases ht with ((((ht | ht) | ht) | ht) | ht) | ht
  · exact ⟨_, _, ht, by simp only [Value, h1]⟩
  · split at ht
    · rw [List.mem_singleton] at ht
      exact ⟨_, _, ht, by simp only [Value, h2]⟩
    · cases ht
  · split at ht
    · rw [List.mem_singleton] at ht
      exact ⟨_, _, ht, by simp only [Value, h3]⟩
    · cases ht
  · exact ⟨_, _, ht, by simp only [Value, h4]⟩
  · split at ht
    · rename_i hf
      rw [and_two, h10] at hf
      rw [List.mem_singleton] at ht
      exact ⟨_, _, ht, by simp only [Value, hf, if_true, h5]⟩
    · rename_i hf
      rw [and_two, h10] at hf
      split at ht
      · rw [List.mem_singleton] at ht
        exact ⟨_, _, ht, by simp only [Value, if_neg hf, ← h5]; exact signed_is 16 _ (by decide)⟩
      · cases ht
  · exact ⟨_, _, ht, by simp only [Value, ← h6]; exact signed_is 32 _ (by decide)⟩

theorem common_ok {m : Mem} {p : Nat} {cb : Iocb} (h : Cb m p cb) : ∀ t ∈ commonFlags cb, Ok m p t := by
  obtain ⟨h1, h2, h3, h4, h5, h6, h7, h8, h9, h10, h11⟩ := h
  intro t ht
  left
  simp only [commonFlags, List.mem_append] at ht
  rcases ht with ht | ht
  · split at ht
    · rw [List.mem_singleton] at ht
      exact ⟨_, _, ht, by simp only [Value, h10]⟩
    · cases ht
  · split at ht
    · rename_i hf
      rw [and_one, h10] at hf
      rw [List.mem_singleton] at ht
      exact ⟨_, _, ht, by simp only [Value, hf, if_true, ← h11]; exact signed_is 32 _ (by decide)⟩
    · rename_i hf
      rw [and_one, h10] at hf
      split at ht
      · rw [List.mem_singleton] at ht
        exact ⟨_, _, ht, by simp only [Value, if_neg hf, h11]⟩
      · cases ht

theorem sub_cases (op : Nat) : (sub op = .common ∧ (op = 0 ∨ op = 1)) ∨ (sub op = .vector ∧ (op = 7 ∨ op = 8))
    ∨ (sub op = .poll ∧ op = 5) ∨ (sub op = .none ∧ op ∉ [0, 1, 5, 7, 8]) := by
  unfold sub
  split <;> simp_all

theorem body_ok {m : Mem} {p : Nat} {cb : Iocb} (h : Cb m p cb) : ∀ t ∈ body cb, Ok m p t := by
  have hc := common_ok h
  obtain ⟨h1, h2, h3, h4, h5, h6, h7, h8, h9, h10, h11⟩ := h
  have hoff : Ok m p (.fld .offset (signed 64 cb.offset)) :=
    Or.inl ⟨_, _, rfl, by simp only [Value, ← h9]; exact signed_is 64 _ (by decide)⟩
  have hbuf : Ok m p (.fld .buf cb.buf) := Or.inl ⟨_, _, rfl, by simp only [Value, h7]⟩
  have hnb : Ok m p (.fld .nbytes cb.nbytes) := Or.inl ⟨_, _, rfl, by simp only [Value, h8]⟩
  intro t ht
  rcases sub_cases cb.opcode with ⟨e, he⟩ | ⟨e, he⟩ | ⟨e, he⟩ | ⟨e, he⟩ <;> simp only [body, e] at ht
  · simp only [List.mem_append, List.mem_cons, List.not_mem_nil, or_false] at ht
    rcases ht with (ht | ht | ht) | ht
    · split at ht
      · rename_i hv
        exact Or.inr (Or.inl ⟨by rw [ht, h7, h8], by rw [← h4]; exact hv.1⟩)
      · rw [ht]; exact hbuf
    · rw [ht]; exact hnb
    · rw [ht]; exact hoff
    · exact hc t ht
  · simp only [List.mem_append, List.mem_singleton] at ht
    rcases ht with (ht | ht) | ht
    · split at ht
      · rw [List.mem_singleton] at ht
        rcases he with he | he
        · exact Or.inr (Or.inr (Or.inl ⟨by rw [ht, he, h7, h8]; rfl, by rw [← h4]; exact he⟩))
        · exact Or.inr (Or.inr (Or.inr ⟨by rw [ht, he, h7, h8]; rfl, by rw [← h4]; exact he⟩))
      · simp only [List.mem_cons, List.not_mem_nil, or_false] at ht
        rcases ht with ht | ht
        · rw [ht]; exact hbuf
        · rw [ht]; exact hnb
    · rw [ht]; exact hoff
    · exact hc t ht
  · simp only [List.mem_append, List.mem_singleton] at ht
    rcases ht with ht | ht
    · rw [ht]; exact hbuf
    · exact hc t ht
  · cases ht

theorem header_places (cb : Iocb) : ((header cb).map place).Sublist [0, 8, 12, 16, 18, 20] := by
  unfold header
  by_cases h1 : cb.key = 0 <;> by_cases h2 : cb.rwFlags = 0 <;> by_cases h3 : cb.flags &&& 2 = 0
    <;> by_cases h4 : cb.reqprio = 0 <;> simp [h1, h2, h3, h4, place, layout]

theorem common_places (cb : Iocb) : ((commonFlags cb).map place).Sublist [56, 60] := by
  unfold commonFlags
  by_cases h1 : cb.flags = 0 <;> by_cases h2 : cb.flags &&& 1 = 0 <;> by_cases h3 : cb.resfd = 0
    <;> simp [h1, h2, h3, place, layout, -Nat.and_one_is_mod]

theorem body_places (cb : Iocb) : ((body cb).map place).Sublist [24, 32, 40, 56, 60] := by
  have hc := common_places cb
  rcases sub_cases cb.opcode with ⟨e, -⟩ | ⟨e, -⟩ | ⟨e, -⟩ | ⟨e, -⟩ <;> simp only [body, e]
  · rw [List.map_append, show ([24, 32, 40, 56, 60] : List Nat) = [24, 32, 40] ++ [56, 60] from rfl]
    refine List.Sublist.append ?_ hc
    split <;> simp [place, layout]
  · rw [List.map_append, show ([24, 32, 40, 56, 60] : List Nat) = [24, 32, 40] ++ [56, 60] from rfl]
    refine List.Sublist.append ?_ hc
    split <;> simp [place, layout]
  · rw [List.map_append, show ([24, 32, 40, 56, 60] : List Nat) = [24, 32, 40] ++ [56, 60] from rfl]
    refine List.Sublist.append ?_ hc
    simp [place, layout]
  · simp

theorem request_sound {m : Mem} {p : Nat} {cb : Iocb} (h : Cb m p cb) : Sound m p (header cb ++ body cb) := by
  constructor
  · intro t ht
    rcases List.mem_append.mp ht with ht | ht
    · exact header_ok h t ht
    · exact body_ok h t ht
  · rw [List.map_append]
    exact List.Pairwise.sublist ((header_places cb).append (body_places cb)) (by decide)

theorem request_complete {m : Mem} {p : Nat} {cb : Iocb} (h : Cb m p cb) (hop : field m p .opcode ∈ [0, 1, 5, 7, 8]) :
    Complete m p (header cb ++ body cb) := by
  obtain ⟨h1, h2, h3, h4, h5, h6, h7, h8, h9, h10, h11⟩ := h
  have hh : ∀ f v, Tok.fld f v ∈ header cb → Shows (header cb ++ body cb) f :=
    fun f v hm => Or.inl ⟨v, List.mem_append_left _ hm⟩
  have hb : ∀ f v, Tok.fld f v ∈ body cb → Shows (header cb ++ body cb) f :=
    fun f v hm => Or.inl ⟨v, List.mem_append_right _ hm⟩
  have hcm : ∀ t, t ∈ commonFlags cb → t ∈ body cb := by
    intro t ht
    rw [← h4] at hop
    rcases sub_cases cb.opcode with ⟨e, -⟩ | ⟨e, -⟩ | ⟨e, -⟩ | ⟨e, he⟩
    · simp only [body, e]; exact List.mem_append_right _ ht
    · simp only [body, e]; exact List.mem_append_right _ ht
    · simp only [body, e]; exact List.mem_append_right _ ht
    · exact absurd hop he
  have base : ∀ f ∈ [Fld.data, .key, .rwFlags, .opcode, .reqprio, .fildes, .flags, .resfd],
      Shows (header cb ++ body cb) f ∨ field m p f = 0 := by
    intro f hf
    simp only [List.mem_cons, List.not_mem_nil, or_false] at hf
    rcases hf with hf | hf | hf | hf | hf | hf | hf | hf <;> subst hf
    · exact Or.inl (hh .data cb.data (by simp [header]))
    · by_cases hz : cb.key = 0
      · exact Or.inr (h2 ▸ hz)
      · exact Or.inl (hh .key cb.key (by simp [header, hz]))
    · by_cases hz : cb.rwFlags = 0
      · exact Or.inr (h3 ▸ hz)
      · exact Or.inl (hh .rwFlags cb.rwFlags (by simp [header, hz]))
    · exact Or.inl (hh .opcode cb.opcode (by simp [header]))
    · by_cases hf2 : cb.flags &&& 2 = 0
      · by_cases hz : cb.reqprio = 0
        · exact Or.inr (h5 ▸ hz)
        · exact Or.inl (hh .reqprio (signed 16 cb.reqprio) (by simp [header, hz, hf2]))
      · exact Or.inl (hh .reqprio cb.reqprio (by simp [header, hf2]))
    · exact Or.inl (hh .fildes (signed 32 cb.fildes) (by simp [header]))
    · by_cases hz : cb.flags = 0
      · exact Or.inr (h10 ▸ hz)
      · exact Or.inl (hb .flags cb.flags (hcm _ (by simp [commonFlags, hz])))
    · by_cases hf1 : cb.flags &&& 1 = 0
      · by_cases hz : cb.resfd = 0
        · exact Or.inr (h11 ▸ hz)
        · exact Or.inl (hb .resfd cb.resfd (hcm _ (by simp [commonFlags, hz, hf1, -Nat.and_one_is_mod])))
      · exact Or.inl (hb .resfd (signed 32 cb.resfd) (hcm _ (by simp [commonFlags, hf1, -Nat.and_one_is_mod])))
  intro f hf
  rw [used, ← h4] at hf
  rcases List.mem_append.mp hf with hf | hf
  · exact base f hf
  · left
    rcases sub_cases cb.opcode with ⟨e, he⟩ | ⟨e, he⟩ | ⟨e, he⟩ | ⟨e, he⟩
    · rw [if_pos (by rcases he with he | he <;> rw [he] <;> decide)] at hf
      simp only [List.mem_cons, List.not_mem_nil, or_false] at hf
      rcases hf with hf | hf | hf <;> subst hf
      · by_cases hv : cb.opcode = 1 ∧ valid cb = true
        · exact Or.inr (Or.inl ⟨rfl, cb.buf, cb.nbytes, List.mem_append_right _ (by
            simp only [body, e, if_pos hv]; simp)⟩)
        · exact hb .buf cb.buf (by simp only [body, e, if_neg hv]; simp)
      · exact hb .nbytes cb.nbytes (by simp only [body, e]; simp)
      · exact hb .offset (signed 64 cb.offset) (by simp only [body, e]; simp)
    · rw [if_pos (by rcases he with he | he <;> rw [he] <;> decide)] at hf
      simp only [List.mem_cons, List.not_mem_nil, or_false] at hf
      by_cases hv : valid cb = true
      · have hi : Tok.iov cb.buf cb.nbytes (decide (cb.opcode = 8)) ∈ header cb ++ body cb :=
          List.mem_append_right _ (by simp only [body, e, if_pos hv]; simp)
        rcases hf with hf | hf | hf <;> subst hf
        · exact Or.inr (Or.inr ⟨Or.inl rfl, _, _, _, hi⟩)
        · exact Or.inr (Or.inr ⟨Or.inr rfl, _, _, _, hi⟩)
        · exact hb .offset (signed 64 cb.offset) (by simp only [body, e]; simp)
      · rcases hf with hf | hf | hf <;> subst hf
        · exact hb .buf cb.buf (by simp only [body, e, if_neg hv]; simp)
        · exact hb .nbytes cb.nbytes (by simp only [body, e, if_neg hv]; simp)
        · exact hb .offset (signed 64 cb.offset) (by simp only [body, e]; simp)
    · rw [he, if_neg (by decide), if_pos rfl, List.mem_singleton] at hf
      subst hf
      exact hb .buf cb.buf (by simp only [body, e]; simp)
    · rw [← h4] at hop
      exact absurd hop he

theorem fetch_some {c : Call} {m : Mem} {err : Bool} {p n : Nat} {l : List Nat} (h : fetch c m err p n = some l) :
    umoven m p n = some l := by
  unfold fetch at h
  split at h
  · exact h
  · cases h

theorem fetch_readable {c : Call} {m : Mem} {p n : Nat} (hv : c.verbose = true) (h : Readable m p n) :
    ∃ l, fetch c m false p n = some l := by
  obtain ⟨l, hl, -⟩ := Prctl.umoven_le (m := m) (n := n) (a := p) h.2
  exact ⟨l, by rw [fetch, if_pos ⟨h.1, hv, rfl⟩, hl]⟩

theorem fetch_unreadable {c : Call} {m : Mem} {err : Bool} {p n : Nat} (h : ¬ Readable m p n) : fetch c m err p n = none := by
  unfold fetch
  split
  · rename_i h'
    exact Prctl.umoven_none (fun h2 => h ⟨h'.1, h2⟩)
  · rfl

/-- **A request is shown with what it asks**, or by its address if it cannot be read. -/
theorem request_partial {c : Call} (hv : c.verbose = true) (elem : List Nat) :
    Request c.before (number elem) (printIocbp c elem) := by
  unfold Request printIocbp
  generalize number elem = p
  constructor
  · intro h
    obtain ⟨l, hl⟩ := fetch_readable hv h
    simp only [hl]
    have hcb : Cb c.before p (iocbOf l) := iocb_field (fetch_some hl)
    exact ⟨_, rfl, request_sound hcb, request_complete hcb⟩
  · intro h
    rw [fetch_unreadable h]

/-! ## Arrays -/

theorem loop_all {get : Nat → Option (List Nat)} {print : List Nat → List Tok} {a es : Nat} : ∀ {k i : Nat}, 0 < i →
    (∀ j, i ≤ j → j < i + k → (get (a + j * es)).isSome) →
    ∃ parts : List (List Tok), parts.length = k ∧ loop get print none a es i k = parts.flatten ++ [.last]
      ∧ ∀ j, j < k → ∃ b, get (a + (i + j) * es) = some b ∧ parts[j]? = some (print b)
  | 0, i, _, _ => ⟨[], rfl, rfl, fun j hj => absurd hj (Nat.not_lt_zero _)⟩
  | k + 1, i, hi, h => by
    obtain ⟨b, hb⟩ := Option.isSome_iff_exists.mp (h i (Nat.le_refl _) (by omega))
    obtain ⟨parts, h1, h2, h3⟩ := loop_all (get := get) (print := print) (a := a) (es := es) (k := k) (i := i + 1) (by omega)
      (fun j hj hj' => h j (by omega) (by omega))
    refine ⟨print b :: parts, by rw [List.length_cons, h1], ?_, ?_⟩
    · rw [loop]
      simp only [hb, show ¬ i = 0 by omega, if_false, Option.any_none, Bool.false_eq_true, List.nil_append, h2,
        List.flatten_cons, List.append_assoc]
    · intro j hj
      cases j with
      | zero => exact ⟨b, hb, rfl⟩
      | succ j =>
        obtain ⟨b', hb', hp⟩ := h3 j (by omega)
        exact ⟨b', by rw [← hb']; congr 3; omega, by simpa using hp⟩

theorem array_all {limit : Option Nat} {get : Nat → Option (List Nat)} {print : List Nat → List Tok} {a n es : Nat}
    (ha : a ≠ 0) (hend : a + n * es < 2 ^ 64) (hl : ∀ l, limit = some l → n ≤ l)
    (h : ∀ j, j < n → (get (a + j * es)).isSome) :
    ∃ parts : List (List Tok), parts.length = n ∧ array limit get print a n es = .first :: parts.flatten ++ [.last]
      ∧ ∀ j, j < n → ∃ b, get (a + j * es) = some b ∧ parts[j]? = some (print b) := by
  unfold array
  rw [if_neg ha]
  cases n with
  | zero => exact ⟨[], rfl, rfl, fun j hj => absurd hj (Nat.not_lt_zero _)⟩
  | succ n =>
    have ht : (limit.filter fun l => decide (l < (n + 1) % 2 ^ 32)) = none := by
      cases hc : limit with
      | none => rfl
      | some l =>
        have := hl l hc
        have h2 := Nat.mod_le (n + 1) (2 ^ 32)
        rw [Option.filter_some, if_neg]
        simp only [decide_eq_true_eq]
        omega
    rw [if_neg (by omega), if_neg (by omega), ht]
    obtain ⟨b, hb⟩ := Option.isSome_iff_exists.mp (h 0 (by omega))
    obtain ⟨parts, h1, h2, h3⟩ := loop_all (get := get) (print := print) (a := a) (es := es) (k := n) (i := 0 + 1) (by omega)
      (fun j hj hj' => h j (by omega))
    refine ⟨print b :: parts, by rw [List.length_cons, h1], ?_, ?_⟩
    · rw [loop, h2]
      simp only [hb, if_true, Option.any_none, Bool.false_eq_true, if_false, List.flatten_cons, List.append_assoc,
        List.cons_append, List.nil_append]
    · intro j hj
      cases j with
      | zero => exact ⟨b, hb, rfl⟩
      | succ j =>
        obtain ⟨b', hb', hp⟩ := h3 j (by omega)
        exact ⟨b', by rw [← hb']; congr 3; omega, by simpa using hp⟩

/-- **io_submit shows each of its requests**, in their order: those that the array of addresses leads to. -/
theorem submit_partial {c : Call} {n : Nat} (hv : c.verbose = true) (hw : c.word = 8 ∨ c.word = 4)
    (hn : Signed (8 * c.word) (c.arg 1) n) (ha : c.arg 2 ≠ 0) (hend : c.arg 2 + n * c.word < 2 ^ 64)
    (hr : ∀ i, i < n * c.word → (c.before (c.arg 2 + i)).isSome) (hl : ∀ l, c.limit = some l → n ≤ l) :
    ∃ parts : List (List Tok), parts.length = n
      ∧ run .submit c = [.addr (c.arg 0), .fld .nr n, .first] ++ parts.flatten ++ [.last]
      ∧ ∀ j, j < n → ∃ l, parts[j]? = some l ∧ Request c.before (Spec.word c.before (c.arg 2 + j * c.word) c.word) l := by
  have hk : klong c (c.arg 1) = n := by
    unfold klong
    rcases hw with h | h
    · rw [if_neg (by omega)]
      rw [h] at hn
      exact signed_unique (by decide) (signed_is 64 _ (by decide)) hn
    · rw [if_pos (by omega)]
      rw [h] at hn
      exact signed_unique (by decide) (signed_is 32 _ (by decide)) hn
  have hread : ∀ j, j < n → Readable c.before (c.arg 2 + j * c.word) c.word := by
    intro j hj
    refine ⟨by omega, fun i hi => ?_⟩
    rw [Nat.add_assoc]
    apply hr
    calc j * c.word + i < j * c.word + c.word := by omega
      _ = (j + 1) * c.word := by rw [Nat.add_mul, Nat.one_mul]
      _ ≤ n * c.word := Nat.mul_le_mul_right _ hj
  obtain ⟨parts, h1, h2, h3⟩ := array_all (limit := c.limit) (get := fun a => fetch c c.before false a c.word)
    (print := printIocbp c) ha hend hl (fun j hj => by
      obtain ⟨l, hl⟩ := fetch_readable hv (hread j hj)
      rw [hl]; rfl)
  refine ⟨parts, h1, ?_, ?_⟩
  · rw [run, hk, if_neg (by omega), Int.toNat_natCast, h2]
    rfl
  · intro j hj
    obtain ⟨b, hb, hp⟩ := h3 j hj
    refine ⟨_, hp, ?_⟩
    rw [word_eq, ← Memc.number_word (fetch_some hb)]
    exact request_partial hv b

/-- **A negative number of requests: the address of the array is shown.** -/
theorem submit_negative {c : Call} {v : Int} (hw : c.word = 8 ∨ c.word = 4) (hn : Signed (8 * c.word) (c.arg 1) v)
    (hneg : v < 0) : run .submit c = [.addr (c.arg 0), .fld .nr v, .addr (c.arg 2)] := by
  have hk : klong c (c.arg 1) = v := by
    unfold klong
    rcases hw with h | h
    · rw [if_neg (by omega)]
      rw [h] at hn
      exact signed_unique (by decide) (signed_is 64 _ (by decide)) hn
    · rw [if_pos (by omega)]
      rw [h] at hn
      exact signed_unique (by decide) (signed_is 32 _ (by decide)) hn
  rw [run, hk, if_pos hneg]
  rfl

theorem event_shown {m : Mem} {p : Nat} {l : List Nat} (h : umoven m p 32 = some l) : Event m p (printEvent l) := by
  have key : ∀ o, o + 8 ≤ 32 → number ((l.drop o).take 8) = Spec.word m (p + o) 8 := by
    intro o ho
    rw [word_eq]
    exact Memc.number_word (Memc.umoven_part h ho)
  refine ⟨signed 64 (field m p .evRes), signed 64 (field m p .evRes2), ?_, signed_is 64 _ (by decide), signed_is 64 _ (by decide)⟩
  simp only [printEvent, key 0 (by decide), key 8 (by decide), key 16 (by decide), key 24 (by decide)]
  rfl

/-- **io_getevents shows each of the events that it has returned**, and its timeout and set of signals. -/
theorem events {c : Call} {sig : Bool} (hv : c.verbose = true) (hf : c.failed = false) (ha : c.arg 3 ≠ 0)
    (hend : c.arg 3 + c.rval * 32 < 2 ^ 64) (hr : ∀ i, i < c.rval * 32 → (c.after (c.arg 3 + i)).isSome)
    (hl : ∀ l, c.limit = some l → c.rval ≤ l) :
    ∃ parts : List (List Tok), parts.length = c.rval
      ∧ (run (.getevents sig) c).drop 3
        = [.first] ++ parts.flatten ++ [.last, .timeout (c.arg 4)] ++ (if sig = true then [.sigset (c.arg 5)] else [])
      ∧ ∀ j, j < c.rval → ∃ l, parts[j]? = some l ∧ Event c.after (c.arg 3 + j * 32) l := by
  have hread : ∀ j, j < c.rval → Readable c.after (c.arg 3 + j * 32) 32 := by
    intro j hj
    refine ⟨by omega, fun i hi => ?_⟩
    rw [Nat.add_assoc]
    apply hr
    omega
  obtain ⟨parts, h1, h2, h3⟩ := array_all (limit := c.limit) (get := fun a => fetch c c.after c.failed a 32)
    (print := printEvent) ha hend hl (fun j hj => by
      obtain ⟨l, hl⟩ := fetch_readable (c := c) hv (hread j hj)
      rw [hf, hl]; rfl)
  refine ⟨parts, h1, ?_, ?_⟩
  · have hd : (run (.getevents sig) c).drop 3
        = array c.limit (fun a => fetch c c.after c.failed a 32) printEvent (c.arg 3) c.rval 32 ++
          [.timeout (c.arg 4)] ++ if sig then [.sigset (c.arg 5)] else [] := rfl
    rw [hd, h2]
    simp
  · intro j hj
    obtain ⟨b, hb, hp⟩ := h3 j hj
    exact ⟨_, hp, event_shown (fetch_some hb)⟩

/-- **If it has failed, the address of the events is shown**, and still the timeout and the set of signals. -/
theorem events_failed {c : Call} {sig : Bool} (hr : c.rval = 2 ^ 64 - 1) :
    (run (.getevents sig) c).drop 3
      = [.addr (c.arg 3), .timeout (c.arg 4)] ++ (if sig = true then [.sigset (c.arg 5)] else []) := by
  have hd : (run (.getevents sig) c).drop 3
      = array c.limit (fun a => fetch c c.after c.failed a 32) printEvent (c.arg 3) c.rval 32 ++
        [.timeout (c.arg 4)] ++ if sig then [.sigset (c.arg 5)] else [] := rfl
  rw [hd, hr]
  unfold array
  split
  · rename_i h0
    rw [h0]
    rfl
  · rw [if_neg (by decide), if_pos (by omega)]
    rfl

/-- **The numbers of io_getevents have a sign**, by the word of the program. -/
theorem events_numbers {c : Call} {sig : Bool} (hw : c.word = 8 ∨ c.word = 4) :
    ∃ v1 v2, (run (.getevents sig) c).take 3 = [.addr (c.arg 0), .fld .minNr v1, .fld .nr v2]
      ∧ Signed (8 * c.word) (c.arg 1) v1 ∧ Signed (8 * c.word) (c.arg 2) v2 := by
  refine ⟨klong c (c.arg 1), klong c (c.arg 2), rfl, ?_, ?_⟩ <;> unfold klong <;> rcases hw with h | h <;> rw [h]
  · exact signed_is 64 _ (by decide)
  · exact signed_is 32 _ (by decide)
  · exact signed_is 64 _ (by decide)
  · exact signed_is 32 _ (by decide)

/-- **io_setup shows how many events are asked for, and the context that it has made.** -/
theorem setup_shown {c : Call} (hv : c.verbose = true) :
    (c.failed = false → Readable c.after (c.arg 1) c.word →
      run .setup c = [.fld .nrEvents (c.arg 0 % 2 ^ 32 : Nat), .pointed (Spec.word c.after (c.arg 1) c.word)])
    ∧ (c.failed = true ∨ ¬ Readable c.after (c.arg 1) c.word →
      run .setup c = [.fld .nrEvents (c.arg 0 % 2 ^ 32 : Nat), .addr (c.arg 1)]) := by
  constructor
  · intro hf hr
    obtain ⟨l, hl⟩ := fetch_readable (c := c) hv hr
    rw [run, hf]
    simp only [hl]
    rw [word_eq, ← Memc.number_word (fetch_some hl)]
  · rintro (hf | hr)
    · simp [run, fetch, hf]
    · rw [run, fetch_unreadable hr]

/-- **io_cancel shows the beginning of the request, and the event when it ends.** -/
theorem cancel_shown {c : Call} (hv : c.verbose = true) (hf : c.failed = false) (hr : Readable c.before (c.arg 1) 64)
    (hr2 : Readable c.after (c.arg 2) 32) :
    ∃ b e, run .cancel c = [.addr (c.arg 0), .opened] ++ b ++ [.closed] ++ e ∧ Sound c.before (c.arg 1) b
      ∧ (∀ f ∈ [Fld.data, .key, .rwFlags, .opcode, .reqprio, .fildes], Shows b f ∨ field c.before (c.arg 1) f = 0)
      ∧ Event c.after (c.arg 2) e := by
  obtain ⟨l, hl⟩ := fetch_readable (c := c) hv hr
  obtain ⟨l2, hl2⟩ := fetch_readable (c := c) hv hr2
  have hcb : Cb c.before (c.arg 1) (iocbOf l) := iocb_field (fetch_some hl)
  refine ⟨header (iocbOf l), printEvent l2, ?_, ⟨header_ok hcb, ?_⟩, ?_, event_shown (fetch_some hl2)⟩
  · rw [run, hf]
    simp only [hl, hl2]
    simp
  · exact List.Pairwise.sublist (header_places _) (by decide)
  · obtain ⟨h1, h2, h3, h4, h5, h6, -⟩ := hcb
    generalize iocbOf l = cb at *
    intro f hf
    simp only [List.mem_cons, List.not_mem_nil, or_false] at hf
    rcases hf with hf | hf | hf | hf | hf | hf <;> subst hf
    · exact Or.inl (Or.inl ⟨cb.data, by simp [header]⟩)
    · by_cases hz : cb.key = 0
      · exact Or.inr (h2 ▸ hz)
      · exact Or.inl (Or.inl ⟨cb.key, by simp [header, hz]⟩)
    · by_cases hz : cb.rwFlags = 0
      · exact Or.inr (h3 ▸ hz)
      · exact Or.inl (Or.inl ⟨cb.rwFlags, by simp [header, hz]⟩)
    · exact Or.inl (Or.inl ⟨cb.opcode, by simp [header]⟩)
    · by_cases hf2 : cb.flags &&& 2 = 0
      · by_cases hz : cb.reqprio = 0
        · exact Or.inr (h5 ▸ hz)
        · exact Or.inl (Or.inl ⟨signed 16 cb.reqprio, by simp [header, hz, hf2]⟩)
      · exact Or.inl (Or.inl ⟨cb.reqprio, by simp [header, hf2]⟩)
    · exact Or.inl (Or.inl ⟨signed 32 cb.fildes, by simp [header]⟩)

/-! ## What is not shown -/

/-- A request of fsync that is to tell the descriptor 9 of its end: the descriptor is not shown (src/aio.c:180-181), although
the kernel looks at it for every operation. -/
theorem fsync_hides : ∃ cb : Iocb, cb.opcode = 2 ∧ cb.flags = 1 ∧ cb.resfd = 9 ∧ Fld.resfd ∈ used cb.opcode
    ∧ ¬ Shows (header cb ++ body cb) .resfd
    ∧ printIocb cb = printIocb { cb with flags := 0, resfd := 0 } :=
  ⟨⟨0, 0, 0, 2, 0, 3, 0, 0, 0, 1, 9⟩, rfl, rfl, rfl, by decide, by
    simp [Shows, header, body, sub], by decide⟩

/-- io_cancel of requests at two addresses, which alone tell the kernel what to cancel, is shown alike. -/
theorem cancel_hides : ∃ c : Call, c.verbose = true ∧ c.arg 1 = 4096
    ∧ run .cancel c = run .cancel { c with arg := fun i => if i = 1 then 8192 else c.arg i } :=
  ⟨⟨fun i => if i = 1 then 4096 else 0, fun _ => some 0, fun _ => some 0, false, 0, true, 8, none⟩, rfl, rfl,
    by decide +kernel⟩

/-! ## Concrete cases -/

/-- A request of pwrite with a priority and a descriptor to be told, at address 4096; its address at 8192; an event at 512. -/
def aMem : Mem := fun a =>
  if 8192 ≤ a ∧ a < 8200 then some (if a = 8193 then 16 else 0)
  else if 4096 ≤ a ∧ a < 4160 then
    some (if a = 4112 then 1 else if a = 4116 then 255 else if a = 4117 then 255 else if a = 4118 then 255 else if a = 4119 then 255
      else if a = 4120 then 7 else if a = 4128 then 5 else if a = 4152 then 1 else if a = 4156 then 9 else 0)
  else if 512 ≤ a ∧ a < 544 then some (if a = 512 then 3 else if 528 ≤ a ∧ a < 536 then 255 else 0)
  else none

def aCall : Call := ⟨fun i => if i = 1 then 1 else if i = 2 then 8192 else if i = 3 then 512 else 0, aMem, aMem, false, 1, true, 8,
  some 32⟩

example : run .submit aCall = [.addr 0, .fld .nr 1, .first, .opened, .fld .data 0, .fld .opcode 1, .fld .fildes (-1),
    .content 7 5, .fld .nbytes 5, .fld .offset 0, .fld .flags 1, .fld .resfd 9, .closed, .last] := by decide +kernel
example : run (.getevents true) aCall = [.addr 0, .fld .minNr 1, .fld .nr 8192, .first, .opened, .fld .evData 3, .fld .evObj 0,
    .fld .evRes (-1), .fld .evRes2 0, .closed, .last, .timeout 0, .sigset 0] := by decide +kernel
example : Signed (8 * 8) 1 ((1 : Nat) : Int) := ⟨by decide, by decide, 0, by decide⟩
example : Signed (8 * 4) (2 ^ 32 - 1) (-1) := ⟨by decide, by decide, 1, by decide⟩

end Strace.Aio
