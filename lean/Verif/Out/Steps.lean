import Verif.Out.Inv
namespace Strace.Out

/-- several pieces of text -/
def St.puts (st : St) (i : Nat) (ks : List Kind) : St := ks.foldl (fun s k => s.put i k 1) st

theorem E.puts {st st' : St} {toks : List Tok} {col : Nat → Nat} {i : Nat} {prt : Option Nat}
    (h : E st st' toks col (some i) prt) (hf : Flat st) (ks : List Kind) :
    E st (st'.puts i ks) (toks ++ ks.map (Tok.mk i)) (fun j => if j = i then col j + ks.length else col j) (some i) prt := by
  induction ks generalizing st' toks col with
  | nil => exact E.congr h (by simp) (fun j => by simp)
  | cons k ks ih =>
    refine E.congr (ih (h.put hf i k 1)) (by simp) ?_
    intro j
    by_cases hj : j = i
    · simp [hj]; omega
    · simp [hj]

/-- clearing TCB_REPRINT -/
def St.unrep (st : St) (i : Nat) : St := st.upd i fun r => { r with reprint := false }

theorem E.unrep {st st' : St} {toks : List Tok} {col : Nat → Nat} {cur prt : Option Nat}
    (h : E st st' toks col cur prt) (i : Nat) : E (st.unrep i) (st'.unrep i) toks col cur prt := by
  refine ⟨h.files, ?_, h.cur, h.prt⟩
  intro j
  simp only [St.unrep, St.upd]
  split
  · rename_i hj; subst hj; rw [h.recs j]
  · exact h.recs j

theorem flat_unrep {st : St} (h : Flat st) (i : Nat) : Flat (st.unrep i) := by
  intro j
  simp only [St.unrep, St.upd]
  split
  · rename_i hj; subst hj; exact h j
  · exact h j

theorem E.resume_yes {st st' : St} {toks : List Tok} {col : Nat → Nat} {i : Nat} {prt : Option Nat}
    (h : E st st' toks col (some i) prt) (hf : Flat st) (ho : OneOpen col prt) {c : Cfg} (hs : c.sep = false)
    (hy : prt ≠ some i ∨ (st.recs i).reprint = true) :
    E (st.unrep i) (st'.resume c i)
      (toks ++ closing col prt ++ [⟨i, .lead (st.recs i).pid⟩, ⟨i, .resumed (st.recs i).n⟩])
      (fun j => if j = i then c.lw + 1 else 0) (some i) (some i) := by
  have hcond : ((!c.sep && decide (st'.prt ≠ some i) && (st'.recs i).staged.isNone) || (st'.recs i).reprint) = true := by
    rw [h.prt, h.recs i, hs, (hf i).1]
    rcases hy with hy | hy
    · simp [hy]
    · simp [hy]
  unfold St.resume
  rw [if_pos hcond]
  have h1 := (((h.unrep i).leader (flat_unrep hf i) ho hs i)).put (flat_unrep hf i) i (.resumed (st'.recs i).n) 1
  have h2 : E (st.unrep i) { (((st'.upd i fun r => { r with reprint := false }).leader c i).put i
      (.resumed (st'.recs i).n) 1) with prt := some i } _ _ (some i) (some i) := ⟨h1.files, h1.recs, h1.cur, rfl⟩
  refine E.congr h2 ?_ ?_
  · rw [h.recs i]
    simp [St.unrep, St.upd]
  · intro j
    split
    · simp
    · rfl

theorem E.resume_no {st st' : St} {toks : List Tok} {col : Nat → Nat} {i : Nat}
    (h : E st st' toks col (some i) (some i)) {c : Cfg} (hn : (st.recs i).reprint = false) :
    E st (st'.resume c i) toks col (some i) (some i) := by
  have hcond : ¬ (((!c.sep && decide (st'.prt ≠ some i) && (st'.recs i).staged.isNone) || (st'.recs i).reprint) = true) := by
    rw [h.prt, h.recs i, hn]
    simp
  unfold St.resume
  rw [if_neg hcond]
  exact ⟨h.files, h.recs, h.cur, rfl⟩

/-- text that completes a call -/
def Tail (ks : List Kind) : Prop :=
  (∀ k ∈ ks, k ≠ .nl ∧ ∀ pid, k ≠ .lead pid) ∧
  ∀ n, A.run (.inC n) (ks ++ [.nl]) = some .idle ∧ A.run (.inR n) (ks ++ [.nl]) = some .idle

theorem IsLog.inner {log : List Tok} {i : Nat} (h : IsLog log (some i)) (ks : List Kind)
    (hk : ∀ k ∈ ks, k ≠ .nl ∧ ∀ pid, k ≠ .lead pid) : IsLog (log ++ ks.map (Tok.mk i)) (some i) := by
  induction ks generalizing log with
  | nil => simpa using h
  | cons k ks ih =>
    have h1 := hk k (by simp)
    have := ih (h.more k ⟨rfl, h1.1, h1.2⟩) (fun k hk' => hk k (List.mem_cons_of_mem _ hk'))
    simpa using this

theorem about_map (i : Nat) (ks : List Kind) : about i (ks.map (Tok.mk i)) = ks := by
  induction ks with
  | nil => rfl
  | cons k ks ih => rw [List.map_cons, about_self, ih]

theorem about_map_other {i j : Nat} (h : j ≠ i) (ks : List Kind) : about j (ks.map (Tok.mk i)) = [] := by
  induction ks with
  | nil => rfl
  | cons k ks ih => rw [List.map_cons, about_other (Ne.symm h), ih]

/-- cutting another tracee's line first changes nothing -/
theorem E.cutOther {st : St} {i : Nat} (hi : Inv ph st) {c : Cfg} (hs : c.sep = false) :
    (st.setCur i).cutOther c i = st.setCur i ∨
    (st.prt ≠ some i ∧ ∃ p, st.prt = some p ∧ E st ((st.setCur i).cutOther c i) (closing (fun j => (st.recs j).col) st.prt)
      (fun _ => 0) (some i) (some p)) := by
  unfold St.cutOther
  have e : (st.setCur i).prt = st.prt := rfl
  rw [e]
  cases hp : st.prt with
  | none => left; rfl
  | some p =>
    dsimp only
    split
    · rename_i hc
      right
      refine ⟨by simp [hc.2.1], p, rfl, ?_⟩
      have h1 := (((E.refl st).setCur i).closeLine hi.flat p).setCur i
      rw [hp] at h1
      refine E.congr h1 ?_ ?_
      · simp only [closing]
        rw [if_pos (by exact hc.2.2.1)]
        rfl
      · intro k
        split
        · rfl
        · rename_i hk
          by_cases hz : (st.recs k).col = 0
          · exact hz
          · have := hi.one k hz
            rw [hp] at this
            injection this with this
            exact absurd this.symm hk
    · left; rfl

/-- the completion of a call -/
theorem complete_spec {ph : Phases} {st : St} (hi : Inv ph st) {c : Cfg} (hs : c.sep = false) (i n : Nat)
    (hn : (st.recs i).n = n) (hsh : Shown n (st.recs i) (decide (st.prt = some i)) (txt st i)) (ks : List Kind)
    (hk : Tail ks) (pre : St) (hpre : pre = st.setCur i ∨ pre = (st.setCur i).cutOther c i) :
    let st' := ((pre.resume c i).puts i (ks ++ [.nl])).lineEnded
    Flat st' ∧ (∀ j, (st'.recs j).col = 0) ∧ st'.prt = none ∧ IsLog (st'.files 0) none ∧
    txt st' i = some .idle ∧ (∀ j, j ≠ i → RecInv (ph j) (st'.recs j) false (txt st' j)) ∧
    st'.recs i = { st.recs i with col := 0, reprint := false } ∧
    (∀ j, j ≠ i → st'.recs j = { st.recs j with col := 0 }) ∧
    ((st.prt = some i ∧ (st.recs i).reprint = false ∧
      st'.files 0 = st.files 0 ++ (ks ++ [Kind.nl]).map (Tok.mk i)) ∨
     ((st.prt ≠ some i ∨ (st.recs i).reprint = true) ∧
      st'.files 0 = st.files 0 ++ (closing (fun j => (st.recs j).col) st.prt ++
        ([⟨i, .lead (st.recs i).pid⟩, ⟨i, .resumed n⟩] ++ (ks ++ [Kind.nl]).map (Tok.mk i))))) := by
  intro st'
  by_cases hy : st.prt ≠ some i ∨ (st.recs i).reprint = true
  · -- resumed on a line of its own
    have hE : E (st.unrep i) (pre.resume c i)
        (closing (fun j => (st.recs j).col) st.prt ++ [⟨i, .lead (st.recs i).pid⟩, ⟨i, .resumed (st.recs i).n⟩])
        (fun j => if j = i then c.lw + 1 else 0) (some i) (some i) := by
      have hplain : E (st.unrep i) ((st.setCur i).resume c i)
          (closing (fun j => (st.recs j).col) st.prt ++ [⟨i, .lead (st.recs i).pid⟩, ⟨i, .resumed (st.recs i).n⟩])
          (fun j => if j = i then c.lw + 1 else 0) (some i) (some i) := by
        have := ((E.refl st).setCur i).resume_yes hi.flat hi.one hs hy
        simpa using this
      rcases hpre with hpre | hpre
      · rw [hpre]; exact hplain
      · rw [hpre]
        rcases E.cutOther (i := i) hi hs with h1 | ⟨hne, p, hp, h1⟩
        · rw [h1]; exact hplain
        · have h2 := h1.resume_yes hi.flat (fun j hj => absurd rfl hj) hs (Or.inl (by rw [← hp]; exact hne))
          refine E.congr h2 ?_ (fun j => rfl)
          simp [closing]
    have hF := (hE.puts (flat_unrep hi.flat i) (ks ++ [Kind.nl])).lineEnded (by
      intro j h1 h2; simp [h1])
    have hfl := hF.flat (flat_unrep hi.flat i)
    have hlog0 := closing_log hi.log hi.one
    have hcl : ∃ a, txt st i = some a ∧ a.run (if (st.recs i).col ≠ 0 then [.unfin, .nl] else []) = some (.cut n) := by
      rcases hsh with ⟨h1, h2⟩ | ⟨h1, h2, _⟩
      · exact ⟨_, h2, by rw [if_pos h1]; rfl⟩
      · exact ⟨_, h2, by rw [if_neg (by simp [h1])]; rfl⟩
    obtain ⟨a, ha, ha'⟩ := hcl
    have hfiles : st'.files 0 = st.files 0 ++ (closing (fun j => (st.recs j).col) st.prt ++
        ([⟨i, .lead (st.recs i).pid⟩, ⟨i, .resumed n⟩] ++ (ks ++ [Kind.nl]).map (Tok.mk i))) := by
      have := hF.files
      rw [hn] at this
      simpa [St.unrep, St.upd] using this
    refine ⟨hfl, fun j => by rw [hF.recs j], hF.prt, ?_, ?_, ?_, ?_, ?_, Or.inr ⟨hy, hfiles⟩⟩
    · rw [hfiles]
      have h1 := ((hlog0.lead i (st.recs i).pid).more (.resumed n) ⟨rfl, by simp, by simp⟩).inner ks hk.1
      have h2 := h1.nl
      simpa using h2
    · rw [txt_self hi.one hfiles ha ha']
      have : about i ([⟨i, .lead (st.recs i).pid⟩, ⟨i, .resumed n⟩] ++ (ks ++ [Kind.nl]).map (Tok.mk i)) =
          [.lead (st.recs i).pid, .resumed n] ++ (ks ++ [.nl]) := by
        rw [about_append, about_map]
        simp [about]
      rw [this, A.run_append]
      have h3 : A.run (.cut n) [.lead (st.recs i).pid, .resumed n] = some (.inR n) := by
        simp [A.run, A.step]
      rw [h3]
      exact (hk.2 n).2
    · intro j hj
      have := (hi.recs j).others (st' := st') hi.one hfiles (by
        intro t ht
        rcases List.mem_append.mp ht with ht | ht
        · simp only [List.mem_cons, List.not_mem_nil, or_false] at ht
          rcases ht with ht | ht <;> rw [ht]
        · obtain ⟨k, _, rfl⟩ := List.mem_map.mp ht
          rfl) hj (by
          rw [hF.recs j]
          simp [St.unrep, St.upd, hj]) (by rw [hF.prt]; simp)
      rw [hF.prt] at this
      simpa using this
    · rw [hF.recs i]
      simp [St.unrep, St.upd]
    · intro j hj
      rw [hF.recs j]
      simp [St.unrep, St.upd, hj]
  · -- on the line it began
    have hp : st.prt = some i := by
      by_cases h : st.prt = some i
      · exact h
      · exact absurd (Or.inl h) hy
    have hr : (st.recs i).reprint = false := by
      cases h : (st.recs i).reprint with
      | false => rfl
      | true => exact absurd (Or.inr h) hy
    have hpre' : pre = st.setCur i := by
      rcases hpre with hpre | hpre
      · exact hpre
      · rw [hpre]
        rcases E.cutOther (i := i) hi hs with h1 | ⟨hne, _⟩
        · exact h1
        · exact absurd hp hne
    have hop : (st.recs i).col ≠ 0 ∧ txt st i = some (.inC n) := by
      rcases hsh with h | ⟨_, _, h | h⟩
      · exact h
      · rw [hr] at h; simp at h
      · simp [hp] at h
    have hz : ∀ j, j ≠ i → (st.recs j).col = 0 := by
      intro j hj
      by_cases h : (st.recs j).col = 0
      · exact h
      · have := hi.one j h
        rw [hp] at this
        injection this with this
        exact absurd this.symm hj
    have h0 := (E.refl st).setCur i
    rw [hp] at h0
    have hE := h0.resume_no (c := c) hr
    rw [← hpre'] at hE
    have hF := (hE.puts hi.flat (ks ++ [Kind.nl])).lineEnded (by
      intro j h1 h2; simp [h1, hz j h1])
    have hfiles : st'.files 0 = st.files 0 ++ (ks ++ [Kind.nl]).map (Tok.mk i) := by
      have := hF.files
      simpa using this
    refine ⟨hF.flat hi.flat, fun j => by rw [hF.recs j], hF.prt, ?_, ?_, ?_, ?_, ?_, Or.inl ⟨hp, hr, hfiles⟩⟩
    · rw [hfiles]
      rcases hi.log with ⟨j, hj, hl⟩ | ⟨hall, _⟩
      · have hji : j = i := by
          by_cases h : j = i
          · exact h
          · exact absurd (hz j h) hj
        rw [hji] at hl
        have := (hl.inner ks hk.1).nl
        simpa using this
      · exact absurd (hall i) hop.1
    · unfold txt
      rw [hfiles, about_append, about_map, A.run_append]
      have := hop.2
      unfold txt at this
      rw [this]
      exact (hk.2 n).1
    · intro j hj
      have hrj := hi.recs j
      obtain ⟨a, ha⟩ := hrj.some
      rw [ha] at hrj
      obtain ⟨a', h1, h2⟩ := run_closed hrj
      rw [if_neg (by simp [hz j hj])] at h1
      simp only [A.run] at h1
      injection h1 with h1
      have ht : txt st' j = some a := by
        unfold txt at ha ⊢
        rw [hfiles, about_append, about_map_other hj, List.append_nil]
        exact ha
      rw [ht, hF.recs j, h1]
      exact h2
    · rw [hF.recs i, ← hr]
    · intro j hj
      rw [hF.recs j]

end Strace.Out
