import Verif.Proofs.Flags
namespace Splint.Flag

/-! ### Values -/

theorem foldl_act_values (i : Bool) (l : List Act) (h : ∀ a ∈ l, isValue a = false) (s : St) :
    (l.foldl (act i) s).values = s.values := by
  induction l generalizing s with
  | nil => rfl
  | cons a l ih =>
    rw [List.foldl_cons, ih (fun x hx => h x (by simp [hx]))]
    have ha := h a (by simp)
    cases a with
    | set f b => cases i <;> rfl
    | value f v => simp [isValue] at ha
    | exports => rfl

theorem setFlagAux_values (s : St) {f : Nat} (h : valueSetters.contains f = false) (b i : Bool) :
    (setFlagAux s f b i).values = s.values :=
  foldl_act_values i _ (acts_noValue h _ _) s

theorem mode_not_valueSetter {f : Nat} (h : isMode f = true) : valueSetters.contains f = false := by
  have hc : valueSetters.all (fun f => !isMode f) = true := by decide +kernel
  by_contra hne
  rw [Bool.not_eq_false] at hne
  have := (List.all_eq_true.1 hc) f (List.contains_iff_mem.1 hne)
  rw [h] at this
  simp at this

theorem foldl_setFlag_values (l : List Nat) (h : ∀ f ∈ l, isMode f = true) (b : Bool) (s : St) :
    (l.foldl (fun s f => setFlag s f b) s).values = s.values := by
  induction l generalizing s with
  | nil => rfl
  | cons a l ih =>
    rw [List.foldl_cons, ih (fun x hx => h x (by simp [hx])), setFlag,
      setFlagAux_values _ (mode_not_valueSetter (h a (by simp)))]

theorem setMode_values (s : St) (m : List Char) : (setMode s m).1.values = s.values := by
  simp only [setMode]
  have h3 : (resetModeFlags s).values = s.values :=
    foldl_setFlag_values _ (fun f hf => (List.mem_filter.1 hf).2) false s
  cases hm : modeTable m with
  | none => exact h3
  | some l => exact (foldl_setFlag_values l (fun f hf => modeTable_mode hm hf) true _).trans h3

/-! ### Saving and restoring -/

/-- The event is a control comment that sets or restores a flag. -/
def Ev.isLocal : Ev → Bool
  | .flag f _ _ => !isGlobal f
  | _ => false

theorem setValue_saved (s : St) (f : Nat) (v : Int) :
    (setValue s f v).saved = s.saved ∧ (setValue s f v).saveflags = s.saveflags := by
  unfold setValue; cases storedValue f v <;> exact ⟨rfl, rfl⟩

theorem setValueFlag_saved (s : St) (f : Nat) (v : Int) :
    (setValueFlag s f v).saved = s.saved ∧ (setValueFlag s f v).saveflags = s.saveflags := by
  unfold setValueFlag
  split_ifs
  · exact ⟨rfl, rfl⟩
  · exact setValue_saved _ f v
  · exact setValue_saved s f v
  · exact ⟨rfl, rfl⟩

/-- The flags that the end of the file will bring back. -/
def St.base (s : St) : Nat → Bool := if s.saved then s.saveflags else s.flags

theorem fileSetFlag_saved (s : St) (f : Nat) (y : Ynm) :
    (fileSetFlag s f y).saved = true ∧ (fileSetFlag s f y).saveflags = s.base := by
  unfold fileSetFlag
  have hs : (if s.saved then s else saveFlagSettings s).saved = true
      ∧ (if s.saved then s else saveFlagSettings s).saveflags = s.base := by
    unfold St.base
    cases h : s.saved <;> simp [saveFlagSettings, h]
  revert hs
  generalize (if s.saved then s else saveFlagSettings s) = t
  intro hs
  cases y with
  | no =>
    obtain ⟨h1, h2⟩ := setFlagAux_saved t f false true
    exact ⟨h1.trans hs.1, h2.trans hs.2⟩
  | yes =>
    obtain ⟨h1, h2⟩ := setFlagAux_saved t f true true
    exact ⟨h1.trans hs.1, h2.trans hs.2⟩
  | maybe =>
    simp only [restoreFlag, if_pos hs.1]
    obtain ⟨h1, h2⟩ := setFlagAux_saved { t with markers := t.markers ++ [(f, Ynm.maybe)] } f
      (t.saveflags f) false
    exact ⟨h1.trans hs.1, h2.trans hs.2⟩

theorem step_local (s : St) {e : Ev} (h : e.isLocal = true) :
    (step s e).saved = true ∧ (step s e).saveflags = s.base := by
  cases e with
  | flag f y v =>
    simp only [Ev.isLocal, Bool.not_eq_true'] at h
    have hf := fileSetFlag_saved s f y
    simp only [step, h, Bool.false_eq_true, if_false]
    cases y <;> cases v
    all_goals try exact hf
    all_goals
      rename_i v
      obtain ⟨h1, h2⟩ := setValueFlag_saved (fileSetFlag s f _) f v
      exact ⟨h1.trans hf.1, h2.trans hf.2⟩
  | mode m => simp [Ev.isLocal] at h
  | oldMain => simp [Ev.isLocal] at h

theorem step_notLocal (s : St) {e : Ev} (h : e.isLocal = false) :
    (step s e).saved = s.saved ∧ (step s e).saveflags = s.saveflags := by
  cases e with
  | flag f y v =>
    simp only [Ev.isLocal, Bool.not_eq_false'] at h
    simp [step, h]
  | mode m => exact setMode_saved s m
  | oldMain => exact ⟨rfl, rfl⟩

theorem step_of_saved (s : St) (e : Ev) (h : s.saved = true) :
    (step s e).saved = true ∧ (step s e).saveflags = s.saveflags := by
  cases he : e.isLocal with
  | true =>
    obtain ⟨h1, h2⟩ := step_local s he
    exact ⟨h1, by rw [h2, St.base, h]; rfl⟩
  | false =>
    obtain ⟨h1, h2⟩ := step_notLocal s he
    exact ⟨h1.trans h, h2⟩

theorem foldl_step_of_saved (evs : List Ev) (s : St) (h : s.saved = true) :
    (evs.foldl step s).saved = true ∧ (evs.foldl step s).saveflags = s.saveflags := by
  induction evs generalizing s with
  | nil => exact ⟨h, rfl⟩
  | cons e evs ih =>
    obtain ⟨h1, h2⟩ := step_of_saved s e h
    obtain ⟨h3, h4⟩ := ih (step s e) h1
    exact ⟨h3, h4.trans h2⟩

theorem exitFile_saved (s : St) : (exitFile s).saved = false := by
  unfold exitFile
  cases h : s.saved <;> simp [h, restoreFlagSettings]

theorem checkFile_saved (s : St) (evs : List Ev) : (checkFile s evs).saved = false :=
  exitFile_saved _

theorem exitFile_flags (s : St) : (exitFile s).flags = s.base := by
  unfold exitFile St.base
  cases h : s.saved <;> simp [restoreFlagSettings]

theorem base_foldl (evs : List Ev) (s : St) :
    (evs.foldl step s).base
      = if s.saved then s.saveflags
        else ((evs.takeWhile fun e => !e.isLocal).foldl step s).flags := by
  induction evs generalizing s with
  | nil => rfl
  | cons e evs ih =>
    by_cases hs : s.saved = true
    · obtain ⟨h1, h2⟩ := foldl_step_of_saved (e :: evs) s hs
      rw [St.base, h1, if_pos rfl, h2, if_pos hs]
    · rw [if_neg hs, List.foldl_cons, ih]
      cases he : e.isLocal with
      | true =>
        obtain ⟨h1, h2⟩ := step_local s he
        rw [h1, if_pos rfl, h2, St.base, if_neg hs, List.takeWhile_cons]
        simp [he]
      | false =>
        obtain ⟨h1, h2⟩ := step_notLocal s he
        rw [h1, if_neg hs, List.takeWhile_cons]
        simp [he]

/-! ### Flags that concern only themselves -/

/-- A flag whose setting is documented to concern no other flag. -/
def plain (f : Nat) : Bool :=
  !(isSpecial f || isIdem f || f == FLG_BOUNDSREAD || f == FLG_BOUNDSWRITE)

def checkPlain : Bool :=
  (List.range NUMFLAGS).all fun f => !plain f || bools.all fun b => bools.all fun d =>
    bools.all fun e => sets (acts (two d e) f b) == [(f, b)]

set_option maxRecDepth 100000 in
theorem checkPlain_true : checkPlain = true := by decide +kernel

theorem plain_sets {f : Nat} (hf : f < NUMFLAGS) (h : plain f = true) (fl : Nat → Bool) (b : Bool) :
    sets (acts fl f b) = [(f, b)] := by
  have hc := checkPlain_true
  simp only [checkPlain, List.all_eq_true, Bool.or_eq_true, beq_iff_eq] at hc
  rcases hc f (List.mem_range.2 hf) with h1 | h1
  · rw [h] at h1; simp at h1
  · rw [acts_two]
    exact h1 b (mem_bools b) _ (mem_bools _) _ (mem_bools _)

theorem restore_flags (s : St) (f : Nat) (g : Nat) :
    (fileSetFlag s f .maybe).flags g
      = lastOf (sets (acts s.flags f (s.base f))) g (s.flags g) := by
  unfold fileSetFlag St.base
  cases h : s.saved <;> simp [saveFlagSettings, restoreFlag, h, setFlagAux_flags]

/-! ### Command lines -/

def headers : List Nat := [FLG_NEVERINCLUDE, FLG_EXPORTHEADER]

def checkHeaders : Bool :=
  (List.range NUMFLAGS).all fun f => headers.contains f || bools.all fun b => bools.all fun d =>
    bools.all fun e => (sets (acts (two d e) f b)).all fun p => !headers.contains p.1

set_option maxRecDepth 100000 in
theorem checkHeaders_true : checkHeaders = true := by decide +kernel

theorem setFlag_headers {f : Nat} (hf : f < NUMFLAGS) (h : headers.contains f = false) (s : St)
    (b i : Bool) {g : Nat} (hg : headers.contains g = true) :
    (setFlagAux s f b i).flags g = s.flags g := by
  rw [setFlagAux_flags]
  apply lastOf_not_mem
  have hc := checkHeaders_true
  simp only [checkHeaders, List.all_eq_true, Bool.or_eq_true] at hc
  rcases hc f (List.mem_range.2 hf) with h1 | h1
  · rw [h] at h1; simp at h1
  · intro p hp e
    rw [acts_two] at hp
    have := h1 b (mem_bools b) _ (mem_bools _) _ (mem_bools _) p hp
    rw [e, hg] at this
    simp at this

theorem setValueFlag_flags (s : St) (f : Nat) (v : Int) (g : Nat) :
    (setValueFlag s f v).flags g = if hasNumber f ∧ 0 ≤ v ∧ g = f then true else s.flags g := by
  unfold setValueFlag
  by_cases h1 : hasNumber f = true
  · by_cases h2 : v < 0
    · simp [h1, h2]
    · have h3 : 0 ≤ v := by omega
      simp only [h1, if_true, h2, if_false, setValueAndFlag, setValue_flags, upd, true_and, h3]
  · rw [if_neg h1]
    by_cases h3 : hasChar f = true
    · rw [if_pos h3, setValue_flags]; simp [h1]
    · rw [if_neg h3]; simp [h1]

end Splint.Flag
