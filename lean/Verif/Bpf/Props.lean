import Verif.Bpf.Spec
import Mathlib.Data.List.Basic
/-!
# C108: a filter program shown can be assembled back
-/
namespace Strace.Bpf

/-- the names of a table have in the headers the values of the table -/
def Good (t : Table) : Prop := ∀ e ∈ t, (headers.find? fun h => h.1 = e.2).map (fun h => (h.2 : Int)) = some (e.1 : Int)

theorem good_class : Good bpfClass := by unfold Good; decide +kernel
theorem good_eclass : Good ebpfClass := by unfold Good; decide +kernel
theorem good_size : Good bpfSize := by unfold Good; decide +kernel
theorem good_esize : Good ebpfSize := by unfold Good; decide +kernel
theorem good_mode : Good bpfMode := by unfold Good; decide +kernel
theorem good_emode : Good ebpfMode := by unfold Good; decide +kernel
theorem good_alu : Good bpfOpAlu := by unfold Good; decide +kernel
theorem good_ealu : Good ebpfOpAlu := by unfold Good; decide +kernel
theorem good_jmp : Good bpfOpJmp := by unfold Good; decide +kernel
theorem good_ejmp : Good ebpfOpJmp := by unfold Good; decide +kernel
theorem good_src : Good bpfSrc := by unfold Good; decide +kernel
theorem good_rval : Good bpfRval := by unfold Good; decide +kernel
theorem good_miscop : Good bpfMiscop := by unfold Good; decide +kernel
theorem good_regs : Good ebpfRegs := by unfold Good; decide +kernel
theorem good_seccomp : Good seccompRet := by unfold Good; decide +kernel
theorem good_ad : Good skfAd := by unfold Good; decide +kernel

theorem hit_good (ts : List Table) (hg : ∀ t ∈ ts, Good t) (v : Nat) (s : String) (h : hit ts v = some s) : term (.name s) = some v := by
  induction ts with
  | nil => simp [hit] at h
  | cons t ts ih =>
    simp only [hit] at h
    split at h
    · rename_i s' hs
      cases h
      unfold lookup at hs
      cases hf : t.find? (fun e => e.1 = v) with
      | none => simp [hf] at hs
      | some e =>
        rw [hf] at hs
        simp at hs
        have h1 := List.mem_of_find?_eq_some hf
        have h2 := List.find?_some hf
        simp at h2
        have := hg t (by simp) e h1
        rw [hs, h2] at this
        exact this
    · exact ih (fun t ht => hg t (by simp [ht])) h

/-- one operand, with comments -/
def Operand (l : List Tok) (v : Int) : Prop := ∃ t, l.filter (fun t => !isComment t) = [t] ∧ term t = some v

/-- tokens of expressions -/
def plain : Tok → Bool
  | .name _ | .hex _ | .num _ | .bar | .plus | .comment _ => true
  | _ => false

theorem operand_xvals (st : Style) (ts : List Table) (hg : ∀ t ∈ ts, Good t) (v : Nat) (d : String) :
    Operand (printxvals st ts v d) v ∧ ∀ x ∈ printxvals st ts v d, plain x = true := by
  unfold printxvals
  have hh : Operand [.hex v] v := ⟨.hex v, by simp [isComment], rfl⟩
  cases st with
  | raw => exact ⟨hh, by simp [plain]⟩
  | named =>
    cases hx : hit ts v with
    | none => exact ⟨⟨.hex v, by simp [isComment], rfl⟩, by simp [plain]⟩
    | some s => exact ⟨⟨.name s, by simp [isComment], hit_good ts hg v s hx⟩, by simp [plain]⟩
  | verbose =>
    cases hx : hit ts v with
    | none => exact ⟨⟨.hex v, by simp [isComment], rfl⟩, by simp [plain]⟩
    | some s => exact ⟨⟨.hex v, by simp [isComment], rfl⟩, by simp [plain]⟩

theorem value_operand (l : List Tok) (v : Int) (h : Operand l v) : value l = some v := by
  obtain ⟨t, h1, h2⟩ := h
  unfold value
  rw [h1]
  exact h2

theorem value_bar (l r : List Tok) (a b : Nat) (h : Operand l a) (hr : value r = some (b : Int)) :
    value (l ++ ([.bar] ++ r)) = some ((a ||| b : Nat) : Int) := by
  obtain ⟨t, h1, h2⟩ := h
  unfold value at hr ⊢
  rw [List.filter_append, h1, List.filter_append]
  have : List.filter (fun t => !isComment t) [Tok.bar] = [.bar] := rfl
  rw [this]
  simp only [List.cons_append, List.nil_append, expr]
  rw [h2, hr]
  rfl

theorem value_plus (l r : List Tok) (a b : Int) (h : Operand l a) (hr : value r = some b) :
    value (l ++ ([.plus] ++ r)) = some (a + b) := by
  obtain ⟨t, h1, h2⟩ := h
  unfold value at hr ⊢
  rw [List.filter_append, h1, List.filter_append]
  have : List.filter (fun t => !isComment t) [Tok.plus] = [.plus] := rfl
  rw [this]
  simp only [List.cons_append, List.nil_append, expr]
  rw [h2, hr]
  rfl

/-- a rest after an expression -/
theorem value_rest (l : List Tok) (a : Nat) (i : BitVec 16) (h : Operand l a) :
    value (l ++ rest i) = some ((a ||| i.toNat : Nat) : Int) := by
  unfold rest
  split
  · have := value_bar l [.hex i.toNat, .comment "BPF_???"] a i.toNat h rfl
    exact this
  · rename_i h0
    have : i = 0 := by simpa using h0
    subst this
    simp [value_operand l a h]

theorem value_rest2 (l m : List Tok) (a b : Nat) (i : BitVec 16) (h : Operand l a) (hm : Operand m b) :
    value (l ++ ([.bar] ++ m ++ rest i)) = some ((a ||| (b ||| i.toNat) : Nat) : Int) := by
  rw [List.append_assoc]
  exact value_bar l _ a _ h (value_rest m b i hm)

theorem value_two (l m n : List Tok) (a b c : Nat) (h : Operand l a) (hm : Operand m b) (hn : Operand n c) :
    value (l ++ ([.bar] ++ m ++ [.bar] ++ n)) = some ((a ||| (b ||| c) : Nat) : Int) := by
  rw [List.append_assoc, List.append_assoc]
  refine value_bar l _ a _ h ?_
  exact value_bar m n b c hm (value_operand _ _ hn)

/-! ## bits -/

theorem bits_ldst (c : BitVec 16) : cls c ||| (size c ||| mode c) = c &&& 0xff := by
  unfold cls size mode
  rw [← BitVec.and_or_distrib_left, ← BitVec.and_or_distrib_left]
  rfl

theorem bits_alu (c : BitVec 16) : cls c ||| (src c ||| op c) = c &&& 0xff := by
  unfold cls src op
  rw [← BitVec.and_or_distrib_left, ← BitVec.and_or_distrib_left]
  rfl

theorem or_rest (c x : BitVec 16) : (c &&& x) ||| (c &&& ~~~ (c &&& x)) = c := by
  ext i hi
  simp
  cases c[i] <;> cases x[i] <;> simp

theorem or_rest2 (c x y : BitVec 16) : (c &&& x) ||| ((c &&& y) ||| ((c &&& ~~~ (c &&& x)) &&& ~~~ (c &&& y))) = c := by
  ext i hi
  simp
  cases c[i] <;> cases x[i] <;> cases y[i] <;> simp

theorem low_all (c : BitVec 16) (h : c.toNat < 256) : c &&& 0xff = c := by
  apply BitVec.eq_of_toNat_eq
  rw [BitVec.toNat_and]
  have : (0xff : BitVec 16).toNat = 2 ^ 8 - 1 := rfl
  rw [this, Nat.and_two_pow_sub_one_eq_mod]
  omega

theorem cls_mod (c : BitVec 16) : (cls c).toNat = c.toNat % 8 := by
  unfold cls
  rw [BitVec.toNat_and]
  have : (0x07 : BitVec 16).toNat = 2 ^ 3 - 1 := rfl
  rw [this, Nat.and_two_pow_sub_one_eq_mod]

theorem cls_cases (c : BitVec 16) : (cls c).toNat = 0 ∨ (cls c).toNat = 1 ∨ (cls c).toNat = 2 ∨ (cls c).toNat = 3 ∨ (cls c).toNat = 4 ∨
    (cls c).toNat = 5 ∨ (cls c).toNat = 6 ∨ (cls c).toNat = 7 := by
  have := cls_mod c
  omega

theorem class_operand (st : Style) (c : BitVec 16) (ext : Bool) :
    Operand (printxvals st [if ext then ebpfClass else bpfClass] (cls c).toNat "BPF_???") (cls c).toNat := by
  refine (operand_xvals st _ ?_ _ _).1
  cases ext <;> simp [good_class, good_eclass]

/-- the value of the code shown: of the classes that have all of their bits named only those bits -/
theorem value_code (st : Style) (c : BitVec 16) (ext : Bool) : value (printCode st c ext) = some
    (((if (cls c).toNat = 0 ∨ (cls c).toNat = 1 ∨ (cls c).toNat = 4 ∨ (cls c).toNat = 5 ∨ (ext = true ∧ (cls c).toNat ≠ 6)
      then c &&& 0xff else c).toNat : Nat) : Int) := by
  have hc := class_operand st c ext
  have hsize : Operand (printxvals st (bpfSize :: if ext then [ebpfSize] else []) (size c).toNat "BPF_???") (size c).toNat := by
    refine (operand_xvals st _ ?_ _ _).1
    cases ext <;> simp [good_size, good_esize]
  have hmode : Operand (printxvals st [if ext then ebpfMode else bpfMode] (mode c).toNat "BPF_???") (mode c).toNat := by
    refine (operand_xvals st _ ?_ _ _).1
    cases ext <;> simp [good_mode, good_emode]
  have hsrc : Operand (printxvals st [bpfSrc] (src c).toNat "BPF_???") (src c).toNat := (operand_xvals st _ (by simp [good_src]) _ _).1
  have halu : Operand (printxvals st (bpfOpAlu :: if ext then [ebpfOpAlu] else []) (op c).toNat "BPF_???") (op c).toNat := by
    refine (operand_xvals st _ ?_ _ _).1
    cases ext <;> simp [good_alu, good_ealu]
  have hjmp : Operand (printxvals st (bpfOpJmp :: if ext then [ebpfOpJmp] else []) (op c).toNat "BPF_???") (op c).toNat := by
    refine (operand_xvals st _ ?_ _ _).1
    cases ext <;> simp [good_jmp, good_ejmp]
  have hldst := value_two _ _ _ _ _ _ hc hsize hmode
  have haluv := value_two _ _ _ _ _ _ hc hsrc halu
  have hjmpv := value_two _ _ _ _ _ _ hc hsrc hjmp
  rw [← BitVec.toNat_or, ← BitVec.toNat_or, bits_ldst] at hldst
  rw [← BitVec.toNat_or, ← BitVec.toNat_or, bits_alu] at haluv hjmpv
  have hrest := value_rest _ _ (c &&& ~~~ cls c) hc
  rw [← BitVec.toNat_or] at hrest
  rw [show cls c ||| (c &&& ~~~ cls c) = c from or_rest c 0x07] at hrest
  have hr : Operand (printxvals st [bpfRval] (rval c).toNat "BPF_???") (rval c).toNat := (operand_xvals st _ (by simp [good_rval]) _ _).1
  have hm : Operand (printxvals st [bpfMiscop] (miscop c).toNat "BPF_???") (miscop c).toNat :=
    (operand_xvals st _ (by simp [good_miscop]) _ _).1
  have hret := value_rest2 _ _ _ _ ((c &&& ~~~ cls c) &&& ~~~ rval c) hc hr
  have hmisc := value_rest2 _ _ _ _ ((c &&& ~~~ cls c) &&& ~~~ miscop c) hc hm
  rw [← BitVec.toNat_or, ← BitVec.toNat_or] at hret hmisc
  rw [show cls c ||| (rval c ||| ((c &&& ~~~ cls c) &&& ~~~ rval c)) = c from or_rest2 c 0x07 0x18] at hret
  rw [show cls c ||| (miscop c ||| ((c &&& ~~~ cls c) &&& ~~~ miscop c)) = c from or_rest2 c 0x07 0xf8] at hmisc
  unfold printCode
  generalize printxvals st [if ext then ebpfClass else bpfClass] (cls c).toNat "BPF_???" = l0 at *
  simp only
  rcases cls_cases c with h | h | h | h | h | h | h | h <;> simp only [h] <;> cases ext <;>
    simp only [Nat.reduceEqDiff, false_or, true_or, or_true, if_true, or_false, if_false, Bool.false_eq_true, false_and, true_and, ne_eq,
      not_false_eq_true, not_true_eq_false] at * <;> first | exact hldst | exact haluv | exact hjmpv | exact hrest | exact hret | exact hmisc

/-! ## what is shown is cut where it should be -/

theorem rest_plain (i : BitVec 16) : ∀ x ∈ rest i, plain x = true := by
  unfold rest
  split <;> simp [plain]

theorem xvals_plain (st : Style) (ts : List Table) (v : Nat) (d : String) : ∀ x ∈ printxvals st ts v d, plain x = true := by
  unfold printxvals
  cases st with
  | raw => simp [plain]
  | named => cases hit ts v <;> simp [plain]
  | verbose => cases hit ts v <;> simp [plain]

theorem code_plain (st : Style) (c : BitVec 16) (ext : Bool) : ∀ x ∈ printCode st c ext, plain x = true := by
  intro x hx
  have hb : plain .bar = true := rfl
  unfold printCode at hx
  simp only at hx
  rw [List.mem_append] at hx
  rcases hx with hx | hx
  · exact xvals_plain _ _ _ _ x hx
  · split at hx <;> (try split at hx) <;> (try simp only [List.mem_append, List.mem_singleton, or_assoc] at hx) <;>
      first
      | exact rest_plain _ x hx
      | (rcases hx with rfl | hx | rfl | hx <;> first | exact hb | exact xvals_plain _ _ _ _ x hx)
      | (rcases hx with rfl | hx | hx <;> first | exact hb | exact xvals_plain _ _ _ _ x hx | exact rest_plain _ x hx)

theorem parts_one (l : List Tok) (h : ∀ x ∈ l, x ≠ .comma) : parts l = [l] := by
  induction l with
  | nil => rfl
  | cons t l ih =>
    have ht := h t (by simp)
    have hi := ih fun x hx => h x (by simp [hx])
    cases t <;> first | exact absurd rfl ht | (simp only [parts]; rw [hi])

theorem parts_comma (l r : List Tok) (h : ∀ x ∈ l, x ≠ .comma) : parts (l ++ .comma :: r) = l :: parts r := by
  induction l with
  | nil => rfl
  | cons t l ih =>
    have ht := h t (by simp)
    have hi := ih fun x hx => h x (by simp [hx])
    rw [List.cons_append]
    cases t <;> first | exact absurd rfl ht | (simp only [parts]; rw [hi])

theorem chunks_end (l r : List Tok) (f : Tok) (hf : f = .close ∨ f = .rbrace) (h : ∀ x ∈ l, x ≠ .close ∧ x ≠ .rbrace) :
    ∀ cur, chunks cur (l ++ f :: r) = (cur ++ l) :: chunks [] r := by
  induction l with
  | nil =>
    intro cur
    rcases hf with rfl | rfl <;> simp [chunks]
  | cons t l ih =>
    intro cur
    have ht := h t (by simp)
    have hi := ih (fun x hx => h x (by simp [hx])) (cur ++ [t])
    rw [List.cons_append]
    cases t <;> first | exact absurd rfl ht.1 | exact absurd rfl ht.2 | (simp only [chunks]; rw [hi]; simp)

theorem plain_sep (x : Tok) (h : plain x = true) : x ≠ .comma ∧ x ≠ .close ∧ x ≠ .rbrace ∧ x ≠ .more := by
  cases x <;> simp [plain] at h ⊢

/-- the elements of an array: those below the limit are read back -/
theorem elems_read {α : Type} (body : α → List Tok) (f : Tok) (g : α → α) (read : List Tok → Option α) (hf : f = .close ∨ f = .rbrace)
    (hb : ∀ x, ∀ t ∈ body x, t ≠ .close ∧ t ≠ .rbrace)
    (hsep : ∀ r, read (.lbrack :: r) = read r ∧ read (.comma :: r) = read r) :
    ∀ (n : Nat) (l : List α) (cur : List Tok), (∀ x ∈ l, read (body x) = some (g x)) → (cur = [.lbrack] ∨ cur = [.comma]) →
      (chunks cur (elems (fun x => body x ++ [f]) n l ++ [.rbrack])).mapM read = some ((l.take n).map g) := by
  intro n
  induction n with
  | zero =>
    intro l cur hr hc
    cases l with
    | nil => simp [elems, chunks]
    | cons x l => simp [elems, chunks]
  | succ n ih =>
    intro l cur hr hc
    cases l with
    | nil => simp [elems, chunks]
    | cons x l =>
      have hx := hr x (by simp)
      have hcur : read (cur ++ body x) = some (g x) := by
        rcases hc with rfl | rfl
        · exact (hsep _).1.trans hx
        · exact (hsep _).2.trans hx
      cases l with
      | nil =>
        simp only [elems]
        rw [List.append_assoc, List.singleton_append, chunks_end _ _ f hf (hb x)]
        simp [chunks, hcur]
      | cons y l =>
        simp only [elems]
        have e : (body x ++ [f] ++ [Tok.comma] ++ elems (fun x => body x ++ [f]) n (y :: l) ++ [Tok.rbrack]) =
            body x ++ f :: ([Tok.comma] ++ (elems (fun x => body x ++ [f]) n (y :: l) ++ [Tok.rbrack])) := by simp
        rw [e, chunks_end _ _ f hf (hb x)]
        have hi := ih (y :: l) [.comma] (fun z hz => hr z (by simp [hz])) (Or.inr rfl)
        have e2 : chunks [] ([Tok.comma] ++ (elems (fun x => body x ++ [f]) n (y :: l) ++ [Tok.rbrack])) =
            chunks [.comma] (elems (fun x => body x ++ [f]) n (y :: l) ++ [Tok.rbrack]) := by
          simp [chunks]
        rw [e2, List.mapM_cons, hcur, hi]
        simp

theorem elems_more {α : Type} (print : α → List Tok) (hp : ∀ x, .more ∉ print x) : ∀ (n : Nat) (l : List α),
    .more ∈ elems print n l ↔ n < l.length := by
  intro n
  induction n with
  | zero => intro l; cases l <;> simp [elems]
  | succ n ih =>
    intro l
    cases l with
    | nil => simp [elems]
    | cons x l =>
      cases l with
      | nil => simp [elems, hp]
      | cons y l =>
        simp only [elems, List.mem_append, hp, false_or, List.mem_singleton]
        rw [ih]
        simp

/-! ## instructions -/

theorem value_k (st : Style) (p : Purpose) (f : Insn) :
    value ((printK p st f).getD [.hex f.k.toNat]) = some (f.k.toNat : Int) ∧
    ∀ x ∈ ((printK p st f).getD [.hex f.k.toNat]), plain x = true := by
  have hx : value [.hex f.k.toNat] = some (f.k.toNat : Int) := rfl
  have hxp : ∀ x ∈ [Tok.hex f.k.toNat], plain x = true := by simp [plain]
  have hxl : ∀ (v : Nat) (s : String), term (.name s) = some (v : Int) → Operand (printXlat st v s) v ∧ ∀ x ∈ printXlat st v s, plain x = true := by
    intro v s hs
    cases st with
    | raw => exact ⟨⟨.hex v, by simp [isComment, printXlat], rfl⟩, by simp [plain, printXlat]⟩
    | named => exact ⟨⟨.name s, by simp [isComment, printXlat], hs⟩, by simp [plain, printXlat]⟩
    | verbose => exact ⟨⟨.hex v, by simp [isComment, printXlat], rfl⟩, by simp [plain, printXlat]⟩
  cases p with
  | none => exact ⟨hx, hxp⟩
  | seccomp =>
    unfold printK seccompK
    simp only
    by_cases h : cls f.code = 6
    · rw [if_pos h, Option.getD_some]
      have ho := operand_xvals st [seccompRet] (by simp [good_seccomp]) (0xffff0000#32 &&& f.k).toNat "SECCOMP_RET_???"
      have hor : (0xffff0000#32 &&& f.k) ||| (f.k &&& ~~~ (0xffff0000#32 &&& f.k)) = f.k := by
        ext i hi
        simp only [BitVec.getElem_or, BitVec.getElem_and, BitVec.getElem_not]
        cases f.k[i] <;> cases (0xffff0000#32)[i] <;> rfl
      split
      · constructor
        · have := value_bar _ [.hex (f.k &&& ~~~ (0xffff0000#32 &&& f.k)).toNat] _ _ ho.1 rfl
          rw [← BitVec.toNat_or, hor] at this
          exact this
        · intro x hx
          rw [List.mem_append] at hx
          rcases hx with hx | hx
          · exact ho.2 x hx
          · simp at hx
            rcases hx with rfl | rfl <;> rfl
      · rename_i h0
        have h0 : (f.k &&& ~~~ (0xffff0000#32 &&& f.k)) = 0 := by simpa using h0
        rw [h0] at hor
        have hk : (0xffff0000#32 &&& f.k) = f.k := by simpa using hor
        rw [hk] at ho ⊢
        rw [List.append_nil]
        exact ⟨value_operand _ _ ho.1, ho.2⟩
    · rw [if_neg h]
      exact ⟨hx, hxp⟩
  | sock =>
    unfold printK sockK
    simp only
    have hlt := f.k.isLt
    by_cases h : cls f.code = 0 ∧ mode f.code = 0x20
    · rw [if_pos h]
      have hsub : ∀ b : BitVec 32, f.k ≥ b → (b.toNat : Int) + ((f.k - b).toNat : Int) = f.k.toNat := by
        intro b hb
        have hb2 : b.toNat ≤ f.k.toNat := hb
        rw [BitVec.toNat_sub_of_le hb]
        omega
      have hpl : ∀ l r : List Tok, (∀ x ∈ l, plain x = true) → (∀ x ∈ r, plain x = true) → ∀ x ∈ l ++ ([.plus] ++ r), plain x = true := by
        intro l r hl hr x hx
        simp only [List.mem_append, List.mem_singleton] at hx
        rcases hx with hx | rfl | hx
        exacts [hl x hx, rfl, hr x hx]
      split
      · rename_i hk
        have h1 := hxl 0xfffff000 "SKF_AD_OFF" (by decide +kernel)
        have h2 := operand_xvals st [skfAd] (by simp [good_ad]) (f.k - 0xfffff000#32).toNat "SKF_AD_???"
        have := value_plus _ _ _ _ h1.1 (value_operand _ _ h2.1)
        rw [List.append_assoc, Option.getD_some]
        refine ⟨?_, hpl _ _ h1.2 h2.2⟩
        rw [this]
        exact congrArg some (hsub 0xfffff000#32 hk)
      · split
        · rename_i hk
          have h1 := hxl 0xfff00000 "SKF_NET_OFF" (by decide +kernel)
          have := value_plus _ [.num (f.k - 0xfff00000#32).toNat] _ _ h1.1 rfl
          refine ⟨?_, hpl _ [.num (f.k - 0xfff00000#32).toNat] h1.2 (by simp [plain])⟩
          refine Eq.trans this ?_
          exact congrArg some (hsub 0xfff00000#32 hk)
        · split
          · rename_i hk
            have h1 := hxl 0xffe00000 "SKF_LL_OFF" (by decide +kernel)
            have := value_plus _ [.num (f.k - 0xffe00000#32).toNat] _ _ h1.1 rfl
            refine ⟨?_, hpl _ [.num (f.k - 0xffe00000#32).toNat] h1.2 (by simp [plain])⟩
            refine Eq.trans this ?_
            exact congrArg some (hsub 0xffe00000#32 hk)
          · exact ⟨hx, hxp⟩
    · rw [if_neg h]
      exact ⟨hx, hxp⟩

/-- an instruction without the end -/
def body (p : Purpose) (st : Style) (f : Insn) : List Tok :=
  if f.jt ≠ 0 ∨ f.jf ≠ 0 then
    [.jump] ++ printCode st f.code false ++ [.comma, .hex f.k.toNat, .comma, .hex f.jt.toNat, .comma, .hex f.jf.toNat]
  else [.stmt] ++ printCode st f.code false ++ [.comma] ++ ((printK p st f).getD [.hex f.k.toNat])

theorem insn_body (p : Purpose) (st : Style) : printInsn p st = fun f => body p st f ++ [.close] := by
  funext f
  unfold printInsn body printJump printStmt
  split <;> simp

/-- no token ends an element but the last -/
theorem body_sep (p : Purpose) (st : Style) (f : Insn) : ∀ t ∈ body p st f, t ≠ .close ∧ t ≠ .rbrace ∧ t ≠ .more := by
  intro t ht
  have hcp := code_plain st f.code false
  have hkp := (value_k st p f).2
  unfold body at ht
  split at ht <;> simp only [List.mem_append, List.mem_singleton, List.mem_cons, List.not_mem_nil, or_false, or_assoc] at ht
  · rcases ht with rfl | ht | rfl | rfl | rfl | rfl | rfl | rfl <;> first | exact (plain_sep t (hcp t ht)).2 | simp
  · rcases ht with rfl | ht | rfl | ht <;> first | exact (plain_sep t (hcp t ht)).2 | exact (plain_sep t (hkp t ht)).2 | simp

/-- the bits of the code that are shown -/
def shownCode (c : BitVec 16) : BitVec 16 := if c.toNat % 8 ∈ [2, 3, 6, 7] then c else c &&& 0xff

theorem value_code_classic (st : Style) (c : BitVec 16) : value (printCode st c false) = some ((shownCode c).toNat : Int) := by
  rw [value_code]
  congr 2
  unfold shownCode
  have h := cls_mod c
  rcases cls_cases c with h1 | h1 | h1 | h1 | h1 | h1 | h1 | h1 <;> rw [h1] at h <;> rw [h1, ← h] <;> simp

theorem shown_ok (f : Insn) (h : f.Ok) : shownCode f.code = f.code := by
  unfold shownCode
  split
  · rfl
  · rename_i hn
    rcases h with h | h
    · exact low_all _ h
    · exact absurd h hn

theorem ofInt_toNat {n : Nat} (x : BitVec n) : BitVec.ofInt n (x.toNat : Int) = x := by
  apply BitVec.eq_of_toInt_eq
  rw [BitVec.toInt_ofInt, BitVec.toInt_eq_toNat_bmod]

theorem read_body (p : Purpose) (st : Style) (f : Insn) : readInsn (body p st f) = some { f with code := shownCode f.code } := by
  have hv := value_code_classic st f.code
  have hc : ∀ x ∈ printCode st f.code false, x ≠ .comma := fun x hx => (plain_sep x (code_plain st f.code false x hx)).1
  obtain ⟨hk, hkp⟩ := value_k st p f
  unfold body
  split
  · have hp : parts (printCode st f.code false ++ [.comma, .hex f.k.toNat, .comma, .hex f.jt.toNat, .comma, .hex f.jf.toNat]) =
        [printCode st f.code false, [.hex f.k.toNat], [.hex f.jt.toNat], [.hex f.jf.toNat]] := by
      rw [parts_comma _ _ hc]
      rfl
    simp only [List.cons_append, List.nil_append, readInsn]
    rw [hp]
    simp only [List.map_cons, List.map_nil, hv]
    have h1 : ∀ n : Nat, value [.hex n] = some (n : Int) := fun _ => rfl
    simp only [h1, ofInt_toNat]
  · rename_i hz
    have hz : f.jt = 0 ∧ f.jf = 0 := by
      constructor
      · by_contra hne; exact hz (Or.inl hne)
      · by_contra hne; exact hz (Or.inr hne)
    generalize hK : (printK p st f).getD [Tok.hex f.k.toNat] = K at *
    have hp : parts (printCode st f.code false ++ .comma :: K) = [printCode st f.code false, K] := by
      rw [parts_comma _ _ hc, parts_one _ (fun x hx => (plain_sep x (hkp x hx)).1)]
    simp only [List.cons_append, List.nil_append, List.append_assoc, readInsn]
    rw [hp]
    simp only [List.map_cons, List.map_nil, hv, hk, ofInt_toNat]
    obtain ⟨c, jt, jf, k⟩ := f
    simp only at hz
    rw [hz.1, hz.2]

theorem insn_sep (p : Purpose) (st : Style) (f : Insn) : .more ∉ printInsn p st f := by
  rw [insn_body]
  simp only [List.mem_append, List.mem_singleton]
  rintro (h | h)
  · exact (body_sep p st f _ h).2.2 rfl
  · cases h

theorem prog_chunks (p : Purpose) (st : Style) (l : List Insn) :
    (chunks [] (printProg p st l)).mapM readInsn = some ((l.take maxInsns).map fun f => { f with code := shownCode f.code }) := by
  have e : chunks [] (printProg p st l) = chunks [.lbrack] (elems (fun f => body p st f ++ [.close]) maxInsns l ++ [.rbrack]) := by
    rw [← insn_body]
    simp [printProg, chunks]
  rw [e]
  exact elems_read (body p st) .close _ readInsn (Or.inl rfl) (fun f t ht => ⟨(body_sep p st f t ht).1, (body_sep p st f t ht).2.1⟩)
    (fun r => ⟨rfl, rfl⟩) maxInsns l [.lbrack] (fun f _ => read_body p st f) (Or.inl rfl)

theorem prog_more (p : Purpose) (st : Style) (l : List Insn) : .more ∈ printProg p st l ↔ maxInsns < l.length := by
  simp only [printProg, List.mem_append, List.mem_singleton]
  rw [elems_more _ (insn_sep p st)]
  simp

/-- C108, classic programs whose codes have no bits beyond those that the class uses: what is shown is the program -/
theorem read_back_partial (p : Purpose) (st : Style) (l : List Insn) (hl : l.length ≤ 4096) (hok : ∀ f ∈ l, f.Ok) :
    readProg (printProg p st l) = some l := by
  unfold readProg
  rw [if_neg (by rw [prog_more]; unfold maxInsns; omega), prog_chunks, List.take_of_length_le (by unfold maxInsns; omega)]
  congr 1
  conv => rhs; rw [← List.map_id l]
  apply List.map_congr_left
  intro f hf
  rw [shown_ok f (hok f hf)]
  rfl

/-- whatever the codes are, all the rest of an instruction and the lower half of its code are shown -/
theorem read_rest (p : Purpose) (st : Style) (l : List Insn) (hl : l.length ≤ 4096) :
    ∃ m, readProg (printProg p st l) = some m ∧ m.map (fun f => (f.jt, f.jf, f.k, f.code.toNat % 256)) =
      l.map (fun f => (f.jt, f.jf, f.k, f.code.toNat % 256)) := by
  refine ⟨l.map fun f => { f with code := shownCode f.code }, ?_, ?_⟩
  · unfold readProg
    rw [if_neg (by rw [prog_more]; unfold maxInsns; omega), prog_chunks, List.take_of_length_le (by unfold maxInsns; omega)]
  · rw [List.map_map]
    apply List.map_congr_left
    intro f _
    simp only [Function.comp]
    congr 3
    unfold shownCode
    split
    · rfl
    · rw [BitVec.toNat_and]
      have : (0xff : BitVec 16).toNat = 2 ^ 8 - 1 := rfl
      rw [this, Nat.and_two_pow_sub_one_eq_mod]
      omega

/-- a longer program, which no kernel accepts: the beginning is shown, and that there is more -/
theorem read_long (p : Purpose) (st : Style) (l : List Insn) (hl : 4096 < l.length) (hok : ∀ f ∈ l, f.Ok) :
    .more ∈ printProg p st l ∧ (chunks [] (printProg p st l)).mapM readInsn = some (l.take 4096) := by
  refine ⟨(prog_more p st l).mpr hl, ?_⟩
  rw [prog_chunks]
  congr 1
  conv => rhs; rw [← List.map_id (l.take 4096)]
  apply List.map_congr_left
  intro f hf
  rw [shown_ok f (hok f (List.mem_of_mem_take hf))]
  rfl

/-- what is false: the upper half of the code is not shown for BPF_LD, BPF_LDX, BPF_ALU and BPF_JMP -/
theorem upper_lost : ∃ f g : Insn, f ≠ g ∧ ∀ p st, printProg p st [f] = printProg p st [g] := by
  refine ⟨⟨0x0120, 0, 0, 4⟩, ⟨0x20, 0, 0, 4⟩, by decide, ?_⟩
  intro p st
  cases p <;> cases st <;> decide +kernel

/-! ## eBPF -/

def ebody (st : Style) (e : EInsn) : List Tok :=
  [.lbrace, .field "code"] ++ printCode st (e.code.setWidth 16) true ++
  [.comma, .field "dst_reg"] ++ printxvals st [ebpfRegs] e.dst.toNat "BPF_REG_???" ++
  [.comma, .field "src_reg"] ++ printxvals st [ebpfRegs] e.src.toNat "BPF_REG_???" ++
  [.comma, .field "off", .num e.off.toInt, .comma, .field "imm", .hex e.imm.toNat]

theorem einsn_body (st : Style) : printEInsn st = fun e => ebody st e ++ [.rbrace] := by
  funext e
  unfold printEInsn ebody
  simp

theorem ebody_sep (st : Style) (e : EInsn) : ∀ t ∈ ebody st e, t ≠ .close ∧ t ≠ .rbrace ∧ t ≠ .more := by
  intro t ht
  have hcp := code_plain st (e.code.setWidth 16) true
  have hd := xvals_plain st [ebpfRegs] e.dst.toNat "BPF_REG_???"
  have hs := xvals_plain st [ebpfRegs] e.src.toNat "BPF_REG_???"
  unfold ebody at ht
  simp only [List.mem_append, List.mem_cons, List.not_mem_nil, or_false, or_assoc] at ht
  rcases ht with rfl | rfl | ht | rfl | rfl | ht | rfl | rfl | ht | rfl | rfl | rfl | rfl | rfl | rfl <;>
    first | exact (plain_sep t (hcp t ht)).2 | exact (plain_sep t (hd t ht)).2 | exact (plain_sep t (hs t ht)).2 | simp

theorem value_ecode (st : Style) (c : BitVec 8) : value (printCode st (c.setWidth 16) true) = some (c.toNat : Int) := by
  have h : (c.setWidth 16).toNat < 256 := by
    have := c.isLt
    rw [BitVec.toNat_setWidth]
    omega
  have hw : (c.setWidth 16).toNat = c.toNat := by
    have := c.isLt
    rw [BitVec.toNat_setWidth]
    omega
  rw [value_code]
  split
  · rw [low_all _ h, hw]
  · rw [hw]

theorem read_ebody (st : Style) (e : EInsn) : readEInsn (ebody st e) = some e := by
  have hc : ∀ x ∈ .field "code" :: printCode st (e.code.setWidth 16) true, x ≠ .comma := by
    intro x hx
    rcases List.mem_cons.mp hx with rfl | hx
    · simp
    · exact (plain_sep x (code_plain st _ true x hx)).1
  have hreg : ∀ (s : String) (v : Nat), ∀ x ∈ .field s :: printxvals st [ebpfRegs] v "BPF_REG_???", x ≠ .comma := by
    intro s v x hx
    rcases List.mem_cons.mp hx with rfl | hx
    · simp
    · exact (plain_sep x (xvals_plain st _ _ _ x hx)).1
  have hv : ∀ v : Nat, value (printxvals st [ebpfRegs] v "BPF_REG_???") = some (v : Int) := fun v =>
    value_operand _ _ (operand_xvals st _ (by simp [good_regs]) _ _).1
  have e1 : ebody st e = .lbrace :: ((.field "code" :: printCode st (e.code.setWidth 16) true) ++ .comma ::
      ((.field "dst_reg" :: printxvals st [ebpfRegs] e.dst.toNat "BPF_REG_???") ++ .comma ::
      ((.field "src_reg" :: printxvals st [ebpfRegs] e.src.toNat "BPF_REG_???") ++ .comma ::
      [.field "off", .num e.off.toInt, .comma, .field "imm", .hex e.imm.toNat]))) := by
    simp [ebody]
  rw [e1]
  simp only [readEInsn]
  rw [parts_comma _ _ hc, parts_comma _ _ (hreg _ _), parts_comma _ _ (hreg _ _)]
  have e2 : parts [.field "off", .num e.off.toInt, .comma, .field "imm", .hex e.imm.toNat] =
      [[.field "off", .num e.off.toInt], [.field "imm", .hex e.imm.toNat]] := rfl
  rw [e2]
  have h1 : value [.num e.off.toInt] = some e.off.toInt := rfl
  have h2 : value [.hex e.imm.toNat] = some (e.imm.toNat : Int) := rfl
  simp only [member, if_true, value_ecode, hv, h1, h2]
  simp [ofInt_toNat]

theorem einsn_sep (st : Style) (e : EInsn) : .more ∉ printEInsn st e := by
  rw [einsn_body]
  simp only [List.mem_append, List.mem_singleton]
  rintro (h | h)
  · exact (ebody_sep st e _ h).2.2 rfl
  · cases h

/-- C108, eBPF programs, whatever they are: what is shown is the program -/
theorem read_back_ebpf (st : Style) (l : List EInsn) (hl : l.length ≤ 4096) : readEProg (printEProg st l) = some l := by
  have hm : .more ∉ printEProg st l := by
    simp only [printEProg, List.mem_append, List.mem_singleton]
    rw [elems_more _ (einsn_sep st)]
    simp [maxInsns, hl]
  have e : chunks [] (printEProg st l) = chunks [.lbrack] (elems (fun e => ebody st e ++ [.rbrace]) maxInsns l ++ [.rbrack]) := by
    rw [← einsn_body]
    simp [printEProg, chunks]
  unfold readEProg
  rw [if_neg hm, e, elems_read (ebody st) .rbrace id readEInsn (Or.inr rfl)
    (fun f t ht => ⟨(ebody_sep st f t ht).1, (ebody_sep st f t ht).2.1⟩) (fun r => ⟨rfl, rfl⟩) maxInsns l [.lbrack]
    (fun f _ => read_ebody st f) (Or.inl rfl), List.take_of_length_le (by unfold maxInsns; omega), List.map_id]

/-! ## the theorems apply -/

/-- a seccomp program: load the number of the call, compare, return -/
def sample : List Insn := [⟨0x20, 0, 0, 0⟩, ⟨0x15, 1, 0, 0x3b⟩, ⟨0x06, 0, 0, 0x7fff0000⟩, ⟨0x06, 0, 0, 0x00050001⟩]

example : sample.length ≤ 4096 ∧ ∀ f ∈ sample, f.Ok := by
  refine ⟨by decide, ?_⟩
  intro f hf
  simp only [sample, List.mem_cons, List.not_mem_nil, or_false] at hf
  rcases hf with rfl | rfl | rfl | rfl <;> exact Or.inl (by decide)

example : (printProg .seccomp .named sample).take 12 =
    [.lbrack, .stmt, .name "BPF_LD", .bar, .name "BPF_W", .bar, .name "BPF_ABS", .comma, .hex 0, .close, .comma, .jump] := by decide +kernel

example : printInsn .sock .named ⟨0x28, 0, 0, 0xfffff000⟩ = [.stmt, .name "BPF_LD", .bar, .name "BPF_H", .bar, .name "BPF_ABS", .comma,
    .name "SKF_AD_OFF", .plus, .name "SKF_AD_PROTOCOL", .close] := by decide +kernel

end Strace.Bpf
