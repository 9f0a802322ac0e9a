import Verif.Out.Spec
namespace Strace.Out

/-! ### Logs -/

theorem IsLog.lead {log : List Tok} (h : IsLog log none) (i pid : Nat) :
    IsLog (log ++ [⟨i, .lead pid⟩]) (some i) := by
  obtain ⟨ls, h1, h2⟩ := h
  exact ⟨ls, [⟨i, .lead pid⟩], h1, ⟨pid, [], rfl, by simp⟩, by rw [h2]⟩

theorem IsLog.more {log : List Tok} {i : Nat} (h : IsLog log (some i)) (k : Kind) (hk : Inner i ⟨i, k⟩) :
    IsLog (log ++ [⟨i, k⟩]) (some i) := by
  obtain ⟨ls, o, h1, ⟨pid, body, h2, h3⟩, h4⟩ := h
  refine ⟨ls, o ++ [⟨i, k⟩], h1, ⟨pid, body ++ [⟨i, k⟩], by rw [h2]; simp, ?_⟩, by rw [h4]; simp⟩
  intro t ht
  rcases List.mem_append.mp ht with ht | ht
  · exact h3 t ht
  · simp only [List.mem_singleton] at ht
    rw [ht]; exact hk

theorem IsLog.nl {log : List Tok} {i : Nat} (h : IsLog log (some i)) :
    IsLog (log ++ [⟨i, .nl⟩]) none := by
  obtain ⟨ls, o, h1, h2, h3⟩ := h
  refine ⟨ls ++ [o ++ [⟨i, .nl⟩]], ?_, by rw [h3]; simp⟩
  intro l hl
  rcases List.mem_append.mp hl with hl | hl
  · exact h1 l hl
  · simp only [List.mem_singleton] at hl
    exact ⟨i, o, h2, hl⟩

theorem IsLog.close {log : List Tok} {i : Nat} (h : IsLog log (some i)) (k : Kind) (hk : Inner i ⟨i, k⟩) :
    IsLog (log ++ [⟨i, k⟩, ⟨i, .nl⟩]) none := by
  have := (h.more k hk).nl
  simpa using this

/-! ### Text about one tracee -/

theorem about_append (i : Nat) (a b : List Tok) : about i (a ++ b) = about i a ++ about i b := by
  simp [about]

theorem A.run_append (a : A) (k l : List Kind) : a.run (k ++ l) = (a.run k).bind (fun a' => a'.run l) := by
  induction k generalizing a with
  | nil => rfl
  | cons x k ih =>
    simp only [List.cons_append, A.run]
    cases a.step x with
    | none => rfl
    | some a' => exact ih a'

theorem about_self (i : Nat) (k : Kind) (l : List Tok) : about i (⟨i, k⟩ :: l) = k :: about i l := by
  simp [about]

theorem about_other {i j : Nat} (h : j ≠ i) (k : Kind) (l : List Tok) : about i (⟨j, k⟩ :: l) = about i l := by
  simp [about, h]

theorem about_nil (i : Nat) : about i [] = [] := rfl

/-! ### Effects in a shared log without staging -/

/-- every record writes to file 0, directly -/
def Flat (st : St) : Prop := ∀ j, (st.recs j).staged = none ∧ (st.recs j).out = 0

/-- only columns change, `toks` are written -/
structure E (st st' : St) (toks : List Tok) (col : Nat → Nat) (cur prt : Option Nat) : Prop where
  files : st'.files 0 = st.files 0 ++ toks
  recs : ∀ j, st'.recs j = { st.recs j with col := col j }
  cur : st'.cur = cur
  prt : st'.prt = prt

theorem E.refl (st : St) : E st st [] (fun j => (st.recs j).col) st.cur st.prt := by
  refine ⟨by simp, fun j => rfl, rfl, rfl⟩

theorem E.congr {st st' : St} {toks toks' : List Tok} {col col' : Nat → Nat} {cur prt : Option Nat}
    (h : E st st' toks col cur prt) (ht : toks = toks') (hc : ∀ j, col j = col' j) : E st st' toks' col' cur prt := by
  subst ht
  exact ⟨h.files, fun j => by rw [h.recs j, hc j], h.cur, h.prt⟩

theorem E.flat {st st' : St} {toks : List Tok} {col : Nat → Nat} {cur prt : Option Nat}
    (h : E st st' toks col cur prt) (hf : Flat st) : Flat st' := by
  intro j
  rw [h.recs j]
  exact hf j

theorem E.setCur {st st' : St} {toks : List Tok} {col : Nat → Nat} {cur prt : Option Nat}
    (h : E st st' toks col cur prt) (i : Nat) : E st (st'.setCur i) toks col (some i) prt :=
  ⟨h.files, h.recs, rfl, h.prt⟩

theorem E.updCol {st st' : St} {toks : List Tok} {col : Nat → Nat} {cur prt : Option Nat}
    (h : E st st' toks col cur prt) (i : Nat) (f : Nat → Nat) :
    E st (st'.upd i fun r => { r with col := f r.col }) toks (fun j => if j = i then f (col j) else col j) cur prt := by
  refine ⟨h.files, ?_, h.cur, h.prt⟩
  intro j
  simp only [St.upd]
  split
  · rename_i hj; subst hj; rw [h.recs j]
  · exact h.recs j

theorem E.write {st st' : St} {toks : List Tok} {col : Nat → Nat} {cur prt : Option Nat}
    (h : E st st' toks col cur prt) (hf : Flat st) (i : Nat) (l : List Tok) :
    E st (st'.write i l) (toks ++ l) col cur prt := by
  have h1 := h.flat hf i
  unfold St.write
  rw [h1.1, h1.2]
  refine ⟨?_, h.recs, h.cur, h.prt⟩
  simp only [St.app, if_true]
  rw [h.files, List.append_assoc]

theorem E.put {st st' : St} {toks : List Tok} {col : Nat → Nat} {i : Nat} {prt : Option Nat}
    (h : E st st' toks col (some i) prt) (hf : Flat st) (who : Nat) (k : Kind) (w : Nat) :
    E st (st'.put who k w) (toks ++ [⟨who, k⟩]) (fun j => if j = i then col j + w else col j) (some i) prt := by
  unfold St.put
  rw [h.cur]
  exact (h.write hf i [⟨who, k⟩]).updCol i (fun x => x + w)

theorem E.closeLine {st st' : St} {toks : List Tok} {col : Nat → Nat} {cur prt : Option Nat}
    (h : E st st' toks col cur prt) (hf : Flat st) (j : Nat) :
    E st (st'.closeLine j) (toks ++ [⟨j, .unfin⟩, ⟨j, .nl⟩]) (fun k => if k = j then 0 else col k) (some j) prt := by
  have := ((((h.setCur j).put hf j .unfin 1).put hf j .nl 1).updCol j (fun _ => 0))
  refine E.congr this (by simp) ?_
  intro k
  split <;> rfl

/-- what closes the line left open -/
def closing (col : Nat → Nat) : Option Nat → List Tok
  | none => []
  | some j => if col j ≠ 0 then [⟨j, .unfin⟩, ⟨j, .nl⟩] else []

/-- only the printing tracee has its line open -/
def OneOpen (col : Nat → Nat) (prt : Option Nat) : Prop := ∀ j, col j ≠ 0 → prt = some j

theorem E.cut {st st' : St} {toks : List Tok} {col : Nat → Nat} {cur prt : Option Nat}
    (h : E st st' toks col cur prt) (hf : Flat st) (ho : OneOpen col prt) {c : Cfg} (hs : c.sep = false) (i : Nat) :
    ∃ cur', E st (st'.cut c i) (toks ++ closing col prt) (fun _ => 0) cur' prt := by
  unfold St.cut
  simp only [hs, Bool.false_eq_true, if_false]
  rw [h.prt]
  cases hp : prt with
  | none =>
    refine ⟨cur, ?_⟩
    dsimp only
    rw [← hp]
    refine E.congr h (by simp [closing, hp]) ?_
    intro j
    by_cases hj : col j = 0
    · exact hj
    · have := ho j hj; rw [hp] at this; simp at this
  | some p =>
    have hmc : st'.mustClose c i p = decide (col p ≠ 0) := by
      unfold St.mustClose
      rw [(h.flat hf p).1, h.recs p, hs]
      simp
    have hz : ∀ k, k ≠ p → col k = 0 := by
      intro k hk
      by_cases hj : col k = 0
      · exact hj
      · have := ho k hj; rw [hp] at this; simp at this; exact absurd this.symm hk
    dsimp only
    rw [hmc, ← hp]
    by_cases hc : col p = 0
    · rw [if_neg (by simp [hc])]
      refine ⟨cur, E.congr h (by simp [closing, hp, hc]) ?_⟩
      intro k
      by_cases hk : k = p
      · rw [hk]; exact hc
      · exact hz k hk
    · rw [if_pos (by simp [hc])]
      refine ⟨some p, E.congr (h.closeLine hf p) (by simp [closing, hp, hc]) ?_⟩
      intro k
      split
      · rfl
      · rename_i hk; exact hz k hk

theorem E.leader {st st' : St} {toks : List Tok} {col : Nat → Nat} {cur prt : Option Nat}
    (h : E st st' toks col cur prt) (hf : Flat st) (ho : OneOpen col prt) {c : Cfg} (hs : c.sep = false) (i : Nat) :
    E st (st'.leader c i) (toks ++ closing col prt ++ [⟨i, .lead (st.recs i).pid⟩])
      (fun j => if j = i then c.lw else 0) (some i) (some i) := by
  obtain ⟨cur', h1⟩ := h.cut hf ho hs i
  unfold St.leader
  have h2 : E st { st'.cut c i with prt := some i, cur := some i } (toks ++ closing col prt) (fun _ => 0) (some i)
      (some i) := ⟨h1.files, h1.recs, rfl, rfl⟩
  have h3 := (h2.updCol i (fun _ => 0)).put hf i (.lead (st'.recs i).pid) c.lw
  refine E.congr h3 (by rw [h.recs i]) ?_
  intro j
  split
  · simp
  · rfl

theorem E.lineEnded {st st' : St} {toks : List Tok} {col : Nat → Nat} {i p : Nat}
    (h : E st st' toks col (some i) (some p)) (hz : ∀ j, j ≠ i → j ≠ p → col j = 0) :
    E st st'.lineEnded toks (fun _ => 0) (some i) none := by
  have h1 : E st st'.endCur toks (fun j => if j = i then 0 else col j) (some i) (some p) := by
    unfold St.endCur
    rw [h.cur]
    exact h.updCol i (fun _ => 0)
  have h2 := h1.updCol p (fun _ => 0)
  unfold St.lineEnded St.endPrt
  rw [h1.prt]
  dsimp only
  refine ⟨h2.files, ?_, h2.cur, rfl⟩
  intro j
  have := h2.recs j
  dsimp only at this ⊢
  rw [this]
  by_cases hj : j = p
  · simp [hj]
  · by_cases hi : j = i
    · simp [hi]
    · simp [hj, hi, hz j hi hj]

end Strace.Out
