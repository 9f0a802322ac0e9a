import Verif.Secon.Spec
import Verif.Quote.Props
import Mathlib.Data.List.Basic
/-!
# C112: SELinux contexts
-/
namespace Strace.Secon
open Strace.Filter (codes)

theorem fields_ne (s : List Nat) : fields s ≠ [] := by
  cases s with
  | nil => simp [fields]
  | cons c r =>
    simp only [fields]
    split
    · simp
    · split <;> simp

theorem fields_cut : ∀ s : List Nat,
    fields s = match (cut s).2 with
      | none => [(cut s).1]
      | some r => (cut s).1 :: fields r
  | [] => rfl
  | c :: r => by
    have ih := fields_cut r
    simp only [fields, cut]
    by_cases h : c = 58
    · rw [if_pos h, if_pos h]
    · rw [if_neg h, if_neg h, ih]
      cases (cut r).2 <;> rfl

theorem typeLoop_spec (s : List Nat) : typeLoop s 2 s = typeOf s := by
  have h0 := fields_cut s
  unfold typeOf
  simp only [typeLoop]
  cases h1 : (cut s).2 with
  | none => rw [h1] at h0; simp only at h0; rw [h0]
  | some r =>
    rw [h1] at h0
    simp only at h0 ⊢
    have h2 := fields_cut r
    cases h3 : (cut r).2 with
    | none => rw [h3] at h2; simp only at h2; rw [h0, h2]
    | some r' =>
      rw [h3] at h2
      simp only at h2 ⊢
      have h4 := fields_cut r'
      cases h5 : (cut r').2 with
      | none => rw [h5] at h4; simp only at h4; rw [h0, h2, h4]
      | some r'' => rw [h5] at h4; simp only at h4; rw [h0, h2, h4]

theorem stripLen_spec (s : List Nat) : ∀ n, n ≤ s.length →
    stripLen s n ≤ n ∧ (∃ k, s.take n = s.take (stripLen s n) ++ List.replicate k 10) ∧ (s.take (stripLen s n)).getLast? ≠ some 10
  | 0, _ => ⟨by simp [stripLen], ⟨0, by simp [stripLen]⟩, by simp [stripLen]⟩
  | n + 1, h => by
    have ih := stripLen_spec s n (by omega)
    simp only [stripLen]
    by_cases c : s[n]? = some 10
    · rw [if_pos c]
      obtain ⟨i1, ⟨k, i2⟩, i3⟩ := ih
      refine ⟨by omega, ⟨k + 1, ?_⟩, i3⟩
      rw [List.take_add_one, c, i2, List.append_assoc, List.replicate_succ']
      rfl
    · rw [if_neg c]
      refine ⟨by omega, ⟨0, by simp⟩, ?_⟩
      rw [List.getLast?_take, if_neg (by omega)]
      simp only [Nat.add_sub_cancel]
      have hn : s[n]? = some (s[n]'(by omega)) := List.getElem?_eq_getElem (by omega)
      rw [hn] at c ⊢
      simpa using c

/-- **C112** the part shown is the part asked for -/
theorem part_shown (full : Bool) (s : List Nat) : Wanted full s (parse full s) := by
  unfold Wanted parse
  rw [typeLoop_spec]
  have := stripLen_spec (if full then s else typeOf s) _ (Nat.le_refl _)
  simp only [List.take_length] at this
  exact this.2

/-- … and there is only one such part -/
theorem wanted_unique (full : Bool) (s r r' : List Nat) (h : Wanted full s r) (h' : Wanted full s r') : r = r' := by
  obtain ⟨⟨k, e⟩, l⟩ := h
  obtain ⟨⟨k', e'⟩, l'⟩ := h'
  have key : ∀ (k k' : Nat) (r r' : List Nat), r ++ List.replicate k 10 = r' ++ List.replicate k' 10 → r.getLast? ≠ some 10 →
      r'.getLast? ≠ some 10 → r = r' := by
    intro k
    induction k with
    | zero =>
      intro k' r r' e l l'
      cases k' with
      | zero => simpa using e
      | succ k' =>
        exfalso
        apply l
        simp only [List.replicate_zero, List.append_nil] at e
        rw [e, List.replicate_succ', ← List.append_assoc, List.getLast?_append]
        rfl
    | succ k ih =>
      intro k' r r' e l l'
      cases k' with
      | zero =>
        exfalso
        apply l'
        simp only [List.replicate_zero, List.append_nil] at e
        rw [← e, List.replicate_succ', ← List.append_assoc, List.getLast?_append]
        rfl
      | succ k' =>
        rw [List.replicate_succ', List.replicate_succ', ← List.append_assoc, ← List.append_assoc] at e
        exact ih k' r r' (List.append_cancel_right e) l l'
  exact key k k' r r' (e.symm.trans e') l l'

/-! ## text -/

theorem escOne_clean (x : Quote.XStyle) (c : Nat) (t : List Nat) (hc : c < 256) :
    ∀ d ∈ Quote.escOne x (codes "[]!") c t, d ≠ 33 ∧ d ≠ 91 ∧ d ≠ 93 := by
  have ee : codes "[]!" = [91, 93, 33] := by decide
  rw [ee]
  have hx : ∀ n, n < 16 → Quote.hexChar n ≠ 33 ∧ Quote.hexChar n ≠ 91 ∧ Quote.hexChar n ≠ 93 := by decide
  intro d hd
  unfold Quote.escOne at hd
  split at hd
  · rename_i h
    simp at hd; omega
  split at hd
  · simp at hd; omega
  split at hd
  · simp at hd; omega
  split at hd
  · simp at hd; omega
  split at hd
  · simp at hd; omega
  split at hd
  · simp at hd; omega
  split at hd
  · rename_i h
    simp at hd
    subst hd
    simp at h
    omega
  split at hd
  · simp only [Quote.byteHex, List.mem_cons, List.not_mem_nil, or_false] at hd
    rcases hd with h | h | h | h
    · omega
    · omega
    · rw [h]; exact hx _ (by omega)
    · rw [h]; exact hx _ (by omega)
  · simp only [List.mem_cons] at hd
    rcases hd with h | h
    · omega
    · unfold Quote.byteOct at h
      split at h
      · simp at h; omega
      split at h
      · split at h
        · simp at h; omega
        · simp at h; omega
      · simp at h; omega

theorem quote_eq (x : Bool) (s : List Nat) : quote x s =
    (Quote.plainLoop ⟨false, true, false, false, false, if x then .nonAsciiChars else .none⟩ (codes "[]!") s).1 := by
  unfold quote Quote.stringQuote
  have : Quote.useHex ⟨false, true, false, false, false, if x then .nonAsciiChars else .none⟩ s = false := by
    cases x <;> rfl
  simp [this]

/-- **C112** nothing in a context is taken for a bracket or for the mark of a mismatch -/
theorem quote_clean (x : Bool) (s : List Nat) (hs : ∀ c ∈ s, c < 256) : ∀ d ∈ quote x s, d ≠ 33 ∧ d ≠ 91 ∧ d ≠ 93 := by
  rw [quote_eq]
  induction s with
  | nil => simp [Quote.plainLoop]
  | cons c t ih =>
    intro d hd
    simp only [Quote.plainLoop, Bool.false_and, Bool.and_false, Bool.false_eq_true, if_false, List.mem_append] at hd
    rcases hd with h | h
    · exact escOne_clean _ c t (hs c (by simp)) d h
    · exact ih (fun c hc => hs c (by simp [hc])) d h

theorem unquote_quote (x : Bool) (s : List Nat) (hs : ∀ c ∈ s, c < 256) : unquote (quote x s) = some s := by
  unfold unquote
  rw [quote_eq, Quote.decode_plain false _ (codes "[]!") s [] hs (by intro _ h; cases h), Quote.shown_all _ _ _ rfl rfl]

theorem mem_parse (full : Bool) (s : List Nat) (hs : ∀ c ∈ s, c < 256) : ∀ c ∈ parse full s, c < 256 := by
  have ht : ∀ (n : Nat) (s w : List Nat), (∀ c ∈ s, c < 256) → (∀ c ∈ w, c < 256) → ∀ c ∈ typeLoop w n s, c < 256 := by
    have hc1 : ∀ s : List Nat, ∀ c ∈ (cut s).1, c ∈ s := by
      intro s
      induction s with
      | nil => simp [cut]
      | cons a r ih =>
        intro c hc
        simp only [cut] at hc
        split at hc
        · simp at hc
        · simp only [List.mem_cons] at hc ⊢
          rcases hc with h | h
          · exact Or.inl h
          · exact Or.inr (ih c h)
    have hc2 : ∀ s r : List Nat, (cut s).2 = some r → ∀ c ∈ r, c ∈ s := by
      intro s
      induction s with
      | nil => intro r h; simp [cut] at h
      | cons a t ih =>
        intro r h c hc
        simp only [cut] at h
        split at h
        · injection h with h; subst h; simp [hc]
        · simp [ih r h c hc]
    intro n
    induction n with
    | zero => intro s w hs _ c hc; exact hs c (hc1 s c hc)
    | succ n ih =>
      intro s w hs hw c hc
      simp only [typeLoop] at hc
      cases h : (cut s).2 with
      | none => rw [h] at hc; exact hw c hc
      | some r => rw [h] at hc; exact ih r w (fun d hd => hs d (hc2 s r h d hd)) hw c hc
  intro c hc
  unfold parse at hc
  have := List.mem_of_mem_take hc
  cases full with
  | true => exact hs c (by simpa using this)
  | false => exact ht 2 s s hs hs c (by simpa using this)

/-- **C112** from what is between the brackets the context can be read back, and the recorded one exactly if it is known and differs -/
theorem context_back (full x : Bool) (ctx : List Nat) (e : Option (List Nat)) (hc : ∀ c ∈ ctx, c < 256)
    (he : ∀ s, e = some s → ∀ c ∈ s, c < 256) :
    readContext (context full x ctx e) = some (parse full ctx,
      match e with
      | none => none
      | some s => if parse full s = parse full ctx then none else some (parse full s)) := by
  have q1 := quote_clean x (parse full ctx) (mem_parse full ctx hc)
  have u1 := unquote_quote x (parse full ctx) (mem_parse full ctx hc)
  have plain : readContext (quote x (parse full ctx)) = some (parse full ctx, none) := by
    unfold readContext
    have : (quote x (parse full ctx)).dropWhile (· != 33) = [] := by
      have := List.dropWhile_append_of_pos (p := (· != 33)) (l₁ := quote x (parse full ctx)) (l₂ := []) (fun d hd => by simpa using (q1 d hd).1)
      rw [List.append_nil] at this
      rw [this]
      rfl
    rw [this]
    simp [u1]
  unfold context
  cases e with
  | none => simpa using plain
  | some s =>
    simp only
    by_cases h : parse full ctx = parse full s
    · rw [if_neg (by simpa using h), if_pos h.symm]
      simpa using plain
    · rw [if_pos h, if_neg (Ne.symm h)]
      have ee : codes "!!" = [33, 33] := by decide
      have u2 := unquote_quote x (parse full s) (mem_parse full s (he s rfl))
      have hall : ∀ d ∈ quote x (parse full ctx), (d != 33) = true := fun d hd => by simpa using (q1 d hd).1
      unfold readContext
      rw [ee, List.dropWhile_append_of_pos hall, List.takeWhile_append_of_pos hall]
      simp only [List.cons_append, List.nil_append]
      have h1 : List.dropWhile (· != 33) (33 :: 33 :: quote x (parse full s)) = 33 :: 33 :: quote x (parse full s) := by
        rw [List.dropWhile_cons_of_neg (by decide)]
      have h2 : List.takeWhile (· != 33) (33 :: 33 :: quote x (parse full s)) = [] := by
        rw [List.takeWhile_cons_of_neg (by decide)]
      rw [h1, h2]
      simp only [List.append_nil, u1, u2]

/-- brackets appear only around a context -/
theorem no_brackets (full x : Bool) (ctx : List Nat) (e : Option (List Nat)) (hc : ∀ c ∈ ctx, c < 256)
    (he : ∀ s, e = some s → ∀ c ∈ s, c < 256) : ∀ d ∈ context full x ctx e, d ≠ 91 ∧ d ≠ 93 := by
  have ee : codes "!!" = [33, 33] := by decide
  intro d hd
  unfold context at hd
  rw [List.mem_append] at hd
  rcases hd with h | h
  · exact (quote_clean x _ (mem_parse full ctx hc) d h).2
  · cases e with
    | none => simp at h
    | some s =>
      simp only at h
      split at h
      · rw [ee] at h
        simp only [List.cons_append, List.nil_append, List.mem_cons] at h
        rcases h with h | h | h
        · omega
        · omega
        · exact (quote_clean x _ (mem_parse full s (he s rfl)) d h).2
      · simp at h

/-! ## which file -/

/-- **C112** nothing is shown unless it was asked for, and the recorded context is looked up only with `mismatch`; the file asked about is
that of the directory and the path, seen from the process -/
theorem file_context (w : World) (c : Config) (pid : Nat) (dirfd : Int) (path ctx : List Nat) (e : Option (List Nat))
    (h : fileCon w c pid dirfd path = some (ctx, e)) :
    c.enabled = true ∧ pid ≠ 0 ∧ (∃ name, w.getfilecon name = some ctx ∧ name.length < 4096 ∧
      (name = codes "/proc/" ++ Base.dec pid ++ codes "/root" ++ path ∧ path.head? = some 47 ∨
       path.head? ≠ some 47 ∧ dirfd = -100 ∧ name = codes "/proc/" ++ Base.dec pid ++ codes "/cwd/" ++ path ∨
       path.head? ≠ some 47 ∧ 0 ≤ dirfd ∧
         name = codes "/proc/" ++ Base.dec pid ++ codes "/fd/" ++ Base.dec dirfd.toNat ++ codes "/" ++ path) ∧
      (∀ s, e = some s → c.mismatch = true ∧ ∃ r m, w.realpath name = some r ∧ w.mode r = some m ∧ w.expected r m = some s)) := by
  unfold fileCon at h
  by_cases h0 : (!c.enabled || pid == 0) = true
  · rw [if_pos h0] at h; cases h
  rw [if_neg h0] at h
  have h0' : c.enabled = true ∧ pid ≠ 0 := by
    cases hc : c.enabled <;> simp [hc] at h0 ⊢
    exact h0
  refine ⟨h0'.1, h0'.2, ?_⟩
  cases hn : fileName pid dirfd path with
  | none => rw [hn] at h; cases h
  | some name =>
    rw [hn] at h
    simp only at h
    have hname : name.length < 4096 ∧
      (name = codes "/proc/" ++ Base.dec pid ++ codes "/root" ++ path ∧ path.head? = some 47 ∨
       path.head? ≠ some 47 ∧ dirfd = -100 ∧ name = codes "/proc/" ++ Base.dec pid ++ codes "/cwd/" ++ path ∨
       path.head? ≠ some 47 ∧ 0 ≤ dirfd ∧
         name = codes "/proc/" ++ Base.dec pid ++ codes "/fd/" ++ Base.dec dirfd.toNat ++ codes "/" ++ path) := by
      unfold fileName at hn
      simp only at hn
      by_cases a1 : path.head? = some 47
      · rw [if_pos a1] at hn
        simp only at hn
        split at hn
        · cases hn
        · injection hn with hn; exact ⟨by rw [← hn]; omega, Or.inl ⟨hn.symm, a1⟩⟩
      rw [if_neg a1] at hn
      by_cases a2 : dirfd = atFdcwd
      · rw [if_pos a2] at hn
        simp only at hn
        split at hn
        · cases hn
        · injection hn with hn; exact ⟨by rw [← hn]; omega, Or.inr (Or.inl ⟨a1, a2, hn.symm⟩)⟩
      rw [if_neg a2] at hn
      by_cases a3 : dirfd ≥ 0
      · rw [if_pos a3] at hn
        simp only at hn
        split at hn
        · cases hn
        · injection hn with hn; exact ⟨by rw [← hn]; omega, Or.inr (Or.inr ⟨a1, a3, hn.symm⟩)⟩
      · rw [if_neg a3] at hn; cases hn
    cases hg : w.getfilecon name with
    | none => rw [hg] at h; cases h
    | some ctx' =>
      rw [hg] at h
      simp only at h
      have fin : ctx' = ctx ∧ (∀ s, e = some s → c.mismatch = true ∧ ∃ r m, w.realpath name = some r ∧ w.mode r = some m ∧ w.expected r m = some s) := by
        by_cases hm : (!c.mismatch) = true
        · rw [if_pos hm] at h
          injection h with h; injection h with h1 h2
          exact ⟨h1, fun s hs => by rw [← h2] at hs; cases hs⟩
        · rw [if_neg hm] at h
          have hm' : c.mismatch = true := by simpa using hm
          cases hr : w.realpath name with
          | none =>
            rw [hr] at h
            injection h with h; injection h with h1 h2
            exact ⟨h1, fun s hs => by rw [← h2] at hs; cases hs⟩
          | some r =>
            rw [hr] at h
            simp only at h
            cases hmode : w.mode r with
            | none =>
              rw [hmode] at h
              injection h with h; injection h with h1 h2
              exact ⟨h1, fun s hs => by rw [← h2] at hs; cases hs⟩
            | some m =>
              rw [hmode] at h
              injection h with h; injection h with h1 h2
              exact ⟨h1, fun s hs => ⟨hm', r, m, rfl, hmode, h2.trans hs⟩⟩
      exact ⟨name, by rw [fin.1] at hg; exact hg, hname.1, hname.2, fin.2⟩

/-- the converse: what is asked for and known is shown -/
theorem file_context_shown (w : World) (c : Config) (pid : Nat) (dirfd : Int) (path name ctx : List Nat) (h : c.enabled = true) (hp : pid ≠ 0)
    (hl : name.length < 4096)
    (hn : name = codes "/proc/" ++ Base.dec pid ++ codes "/root" ++ path ∧ path.head? = some 47 ∨
       path.head? ≠ some 47 ∧ dirfd = -100 ∧ name = codes "/proc/" ++ Base.dec pid ++ codes "/cwd/" ++ path ∨
       path.head? ≠ some 47 ∧ 0 ≤ dirfd ∧
         name = codes "/proc/" ++ Base.dec pid ++ codes "/fd/" ++ Base.dec dirfd.toNat ++ codes "/" ++ path)
    (hg : w.getfilecon name = some ctx) :
    ∃ e, fileCon w c pid dirfd path = some (ctx, e) ∧
      (c.mismatch = true → ∀ r m s, w.realpath name = some r → w.mode r = some m → w.expected r m = some s → e = some s) := by
  have hf : fileName pid dirfd path = some name := by
    unfold fileName
    simp only
    rcases hn with ⟨e, a⟩ | ⟨a, d, e⟩ | ⟨a, d, e⟩
    · rw [if_pos a, ← e]; simp only; rw [if_neg (by omega)]
    · rw [if_neg a, if_pos (show dirfd = atFdcwd from d), ← e]; simp only; rw [if_neg (by omega)]
    · rw [if_neg a, if_neg (show dirfd ≠ atFdcwd by unfold atFdcwd; omega), if_pos d, ← e]; simp only; rw [if_neg (by omega)]
  unfold fileCon
  rw [if_neg (by simp [h, hp]), hf]
  simp only [hg]
  cases hm : c.mismatch with
  | false => exact ⟨none, by simp, by simp⟩
  | true =>
    simp only [Bool.not_true, Bool.false_eq_true, if_false]
    cases hr : w.realpath name with
    | none => exact ⟨none, rfl, fun _ r m s h => by cases h⟩
    | some r =>
      simp only
      cases hmo : w.mode r with
      | none => exact ⟨none, rfl, fun _ r' m s h1 h2 => by injection h1 with h1; subst h1; rw [hmo] at h2; cases h2⟩
      | some m =>
        exact ⟨w.expected r m, rfl, fun _ r' m' s h1 h2 h3 => by
          injection h1 with h1; subst h1; rw [hmo] at h2; injection h2 with h2; subst h2; exact h3⟩

/-- the context of a descriptor is asked of the link of that descriptor, and the recorded one is that of its path and of its own mode -/
theorem fd_context (w : World) (c : Config) (pid : Nat) (fd : Int) (ctx : List Nat) (e : Option (List Nat))
    (h : fdCon w c pid fd = some (ctx, e)) :
    c.enabled = true ∧ pid ≠ 0 ∧ 0 ≤ fd ∧ w.getfilecon (codes "/proc/" ++ Base.dec pid ++ codes "/fd/" ++ Base.dec fd.toNat) = some ctx ∧
      (∀ s, e = some s → c.mismatch = true ∧ ∃ p m, w.fdPath pid fd = some p ∧
        w.mode (codes "/proc/" ++ Base.dec pid ++ codes "/fd/" ++ Base.dec fd.toNat) = some m ∧ w.expected p m = some s) := by
  unfold fdCon at h
  by_cases h0 : (!c.enabled || decide (fd < 0) || pid == 0) = true
  · rw [if_pos h0] at h; cases h
  rw [if_neg h0] at h
  have h0' : c.enabled = true ∧ 0 ≤ fd ∧ pid ≠ 0 := by
    cases hc : c.enabled <;> simp [hc] at h0 ⊢
    exact h0
  simp only at h
  cases hg : w.getfilecon (codes "/proc/" ++ Base.dec pid ++ codes "/fd/" ++ Base.dec fd.toNat) with
  | none => rw [hg] at h; cases h
  | some ctx' =>
    rw [hg] at h
    simp only at h
    by_cases hm : (!c.mismatch) = true
    · rw [if_pos hm] at h
      injection h with h; injection h with h1 h2
      exact ⟨h0'.1, h0'.2.2, h0'.2.1, by rw [h1], fun s hs => by rw [← h2] at hs; cases hs⟩
    rw [if_neg hm] at h
    have hm' : c.mismatch = true := by simpa using hm
    cases hr : w.fdPath pid fd with
    | none =>
      rw [hr] at h
      injection h with h; injection h with h1 h2
      exact ⟨h0'.1, h0'.2.2, h0'.2.1, by rw [h1], fun s hs => by rw [← h2] at hs; cases hs⟩
    | some p =>
      rw [hr] at h
      simp only at h
      cases hmode : w.mode (codes "/proc/" ++ Base.dec pid ++ codes "/fd/" ++ Base.dec fd.toNat) with
      | none =>
        rw [hmode] at h
        injection h with h; injection h with h1 h2
        exact ⟨h0'.1, h0'.2.2, h0'.2.1, by rw [h1], fun s hs => by rw [← h2] at hs; cases hs⟩
      | some m =>
        rw [hmode] at h
        injection h with h; injection h with h1 h2
        exact ⟨h0'.1, h0'.2.2, h0'.2.1, by rw [h1], fun s hs => ⟨hm', p, m, rfl, rfl, h2.trans hs⟩⟩

theorem replicate_paths (args : Nat → Int) (n : Nat) : ∀ (last : Int) (l : List (Int × Nat)),
    ((List.replicate n (Op.path 1)).foldl (step args) (last, l)).2 = l ++ List.replicate n (last, 1) := by
  induction n with
  | zero => intro last l; simp
  | succ n ih =>
    intro last l
    rw [List.replicate_succ, List.foldl_cons, List.replicate_succ]
    simp only [step]
    rw [ih, List.append_assoc]
    rfl

/-- **C112** whatever calls a process made before, the paths of a call are looked up in the directories in which the kernel does. (Of a
symbolic link and of fsconfig it is not so: `symlink_target`, `fsconfig_directory`.) -/
theorem directories_partial (calls : List (Call × (Nat → Int))) (h : ∀ c ∈ calls, c.1 ≠ .symlinkat ∧ c.1 ≠ .fsconfigPath) :
    history atFdcwd calls = calls.map fun c => kernelLookups c.2 c.1 := by
  induction calls with
  | nil => rfl
  | cons c r ih =>
    obtain ⟨c, args⟩ := c
    have h1 := h (c, args) (by simp)
    simp only [history, List.map_cons]
    have e : (call atFdcwd c args).1 = atFdcwd := rfl
    rw [e, ih (fun x hx => h x (by simp [hx]))]
    congr 1
    cases c with
    | symlinkat => exact absurd rfl h1.1
    | fsconfigPath => exact absurd rfl h1.2
    | getdents n =>
      simp only [call, ops, List.foldl_cons, step, kernelLookups]
      rw [replicate_paths]
      simp
    | _ => rfl

/-- of symlinkat the path of the link is looked up where the kernel does -/
theorem symlink_path (last : Int) (args : Nat → Int) :
    (call last .symlinkat args).2 = (last, 0) :: kernelLookups args .symlinkat := rfl

/-- **finding** the target of a symbolic link, which the kernel does not look up, gets the context of the file of that name in the current
directory -/
theorem symlink_target : ∃ args, (-100, 0) ∈ (call atFdcwd .symlinkat args).2 ∧ (-100, 0) ∉ kernelLookups args .symlinkat :=
  ⟨fun _ => 3, by decide, by decide⟩

/-- **finding** the path of fsconfig(FSCONFIG_SET_PATH) is looked up in the current directory, not in that of its descriptor, which is
printed after it -/
theorem fsconfig_directory : ∃ args, (call atFdcwd .fsconfigPath args).2 ≠ kernelLookups args .fsconfigPath :=
  ⟨fun _ => 3, by decide⟩

/-! ## Examples -/

/-- a context with a mismatch in the type -/
example : context false false (codes "system_u:object_r:etc_t:s0\n") (some (codes "system_u:object_r:shadow_t:s0")) = codes "etc_t!!shadow_t" := by
  decide +kernel
/-- the types agree, the levels do not -/
example : context false false (codes "u:r:etc_t:s0") (some (codes "u:r:etc_t:s1")) = codes "etc_t" := by decide +kernel
example : context true false (codes "u:r:a!b]:s0") none = codes "u:r:a\\41b\\135:s0" := by decide +kernel
example : fileName 42 3 (codes "a/b") = some (codes "/proc/42/fd/3/a/b") := by decide +kernel
example : history atFdcwd [(.at2, fun n => n), (.onePath 0, fun _ => 7)] = [[(0, 1), (2, 3)], [(-100, 0)]] := by decide

end Strace.Secon
