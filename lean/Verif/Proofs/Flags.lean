import Verif.Model.Flags
import Verif.Spec.Flags
import Mathlib.Data.List.Basic
namespace Splint.Flag

/-! ### What a list of statements does to the flags -/

/-- The flags a list of statements sets. -/
def sets : List Act → List (Nat × Bool)
  | [] => []
  | .set f b :: l => (f, b) :: sets l
  | _ :: l => sets l

theorem setValue_flags (s : St) (f : Nat) (v : Int) : (setValue s f v).flags = s.flags := by
  unfold setValue; cases storedValue f v <;> rfl

theorem act_flags_set (i : Bool) (s : St) (f : Nat) (b : Bool) :
    (act i s (.set f b)).flags = upd s.flags f b := by
  cases i <;> rfl

/-- The last setting of `g` in a list of settings, or else `c`. -/
def lastOf (l : List (Nat × Bool)) (g : Nat) (c : Bool) : Bool :=
  l.foldl (fun v p => if p.1 = g then p.2 else v) c

theorem lastOf_append (l l' : List (Nat × Bool)) (g : Nat) (c : Bool) :
    lastOf (l ++ l') g c = lastOf l' g (lastOf l g c) := by simp [lastOf]

theorem foldl_act_flags (i : Bool) (l : List Act) (s : St) (g : Nat) :
    (l.foldl (act i) s).flags g = lastOf (sets l) g (s.flags g) := by
  induction l generalizing s with
  | nil => rfl
  | cons a l ih =>
    rw [List.foldl_cons, ih]
    cases a with
    | set f b =>
      rw [act_flags_set, sets]
      show lastOf (sets l) g _ = lastOf (sets l) g _
      congr 1
      unfold upd
      by_cases h : g = f
      · subst h; simp
      · simp [h, Ne.symm h]
    | value f v => simp [act, setValue_flags, sets]
    | exports => simp [act, sets]

theorem lastOf_not_mem {l : List (Nat × Bool)} {g : Nat} (h : ∀ p ∈ l, p.1 ≠ g) (c : Bool) :
    lastOf l g c = c := by
  induction l generalizing c with
  | nil => rfl
  | cons a l ih =>
    have h1 := h a (by simp)
    simp only [lastOf, List.foldl_cons, if_neg h1]
    exact ih (fun p hp => h p (by simp [hp])) c

theorem lookup_not_mem {l : List (Nat × Bool)} {g : Nat} (h : ∀ p ∈ l, p.1 ≠ g) :
    l.lookup g = none := by
  induction l with
  | nil => rfl
  | cons a l ih =>
    have h1 := h a (by simp)
    rw [List.lookup_cons]
    have : (g == a.1) = false := by simpa using Ne.symm h1
    rw [this]
    exact ih fun p hp => h p (by simp [hp])

/-! ### The statements depend on the state only through two flags -/

/-- A state of the flags with the two flags `acts` looks at. -/
def two (d e : Bool) (g : Nat) : Bool := if g = FLG_DISTINCTEXTERNALNAMES then d else e

theorem acts_two (flags : Nat → Bool) (f : Nat) (b : Bool) :
    acts flags f b
      = acts (two (flags FLG_DISTINCTEXTERNALNAMES) (flags FLG_DISTINCTINTERNALNAMES)) f b := by
  unfold acts
  have h1 : two (flags FLG_DISTINCTEXTERNALNAMES) (flags FLG_DISTINCTINTERNALNAMES)
      FLG_DISTINCTEXTERNALNAMES = flags FLG_DISTINCTEXTERNALNAMES := by simp [two]
  have h2 : two (flags FLG_DISTINCTEXTERNALNAMES) (flags FLG_DISTINCTINTERNALNAMES)
      FLG_DISTINCTINTERNALNAMES = flags FLG_DISTINCTINTERNALNAMES := by simp [two]
  rw [h1, h2]

/-- The flags a setting or its documentation mentions. -/
def keys (d e : Bool) (f : Nat) (b : Bool) : List Nat :=
  (sets (acts (two d e) f b)).map (·.1) ++ (Spec.documented f b).map (·.1)

/-- Whether the setting of `g`, now `c`, comes out as documented. -/
def same (d e : Bool) (f : Nat) (b : Bool) (g : Nat) (c : Bool) : Bool :=
  lastOf (sets (acts (two d e) f b)) g c == ((Spec.documented f b).lookup g).getD c

/-- Whether `c` can be the setting of `g`. -/
def fits (d e : Bool) (g : Nat) (c : Bool) : Bool :=
  (g != FLG_DISTINCTEXTERNALNAMES || c == d) && (g != FLG_DISTINCTINTERNALNAMES || c == e)

def bools : List Bool := [true, false]

theorem mem_bools (b : Bool) : b ∈ bools := by cases b <;> simp [bools]

def checkFlags : Bool :=
  (List.range NUMFLAGS).all fun f => bools.all fun b => Spec.deviates f b ||
    (bools.all fun d => bools.all fun e => (keys d e f b).all fun g => bools.all fun c =>
      !fits d e g c || same d e f b g c)

def checkDeviates : Bool :=
  (List.range NUMFLAGS).all fun f => bools.all fun b => !Spec.deviates f b ||
    (bools.any fun d => bools.any fun e => (keys d e f b).any fun g => bools.any fun c =>
      fits d e g c && !same d e f b g c)

set_option maxRecDepth 100000 in
theorem checkFlags_true : checkFlags = true := by decide +kernel

set_option maxRecDepth 100000 in
theorem checkDeviates_true : checkDeviates = true := by decide +kernel

theorem setFlagAux_flags (s : St) (f : Nat) (b i : Bool) (g : Nat) :
    (setFlagAux s f b i).flags g = lastOf (sets (acts s.flags f b)) g (s.flags g) :=
  foldl_act_flags i _ s g

theorem setFlagAux_documented (s : St) {f : Nat} {b : Bool} (i : Bool) (hf : f < NUMFLAGS)
    (hd : Spec.deviates f b = false) (g : Nat) :
    (setFlagAux s f b i).flags g = Spec.after s.flags f b g := by
  rw [setFlagAux_flags, Spec.after, acts_two]
  set d := s.flags FLG_DISTINCTEXTERNALNAMES with hdd
  set e := s.flags FLG_DISTINCTINTERNALNAMES with hee
  by_cases hk : g ∈ keys d e f b
  · have h := checkFlags_true
    simp only [checkFlags, List.all_eq_true, Bool.or_eq_true] at h
    have h := h f (List.mem_range.2 hf) b (mem_bools b)
    rcases h with h | h
    · rw [hd] at h; exact absurd h (by simp)
    · have h := h d (mem_bools _) e (mem_bools _) g hk (s.flags g) (mem_bools _)
      rcases h with h | h
      · exfalso
        have : fits d e g (s.flags g) = true := by
          simp only [fits, Bool.and_eq_true, Bool.or_eq_true, bne_iff_ne, beq_iff_eq]
          constructor
          · by_cases hg : g = FLG_DISTINCTEXTERNALNAMES
            · right; rw [hg]
            · left; exact hg
          · by_cases hg : g = FLG_DISTINCTINTERNALNAMES
            · right; rw [hg]
            · left; exact hg
        rw [this] at h; simp at h
      · exact eq_of_beq h
  · simp only [keys, List.mem_append, List.mem_map, not_or, not_exists, not_and] at hk
    rw [lastOf_not_mem hk.1, lookup_not_mem hk.2]; rfl

theorem setFlagAux_deviates {f : Nat} {b : Bool} (i : Bool) (hf : f < NUMFLAGS)
    (hd : Spec.deviates f b = true) (s : St) :
    ∃ (flags : Nat → Bool) (g : Nat),
      (setFlagAux { s with flags } f b i).flags g ≠ Spec.after flags f b g := by
  have h := checkDeviates_true
  simp only [checkDeviates, List.all_eq_true, Bool.or_eq_true, List.any_eq_true,
    Bool.and_eq_true] at h
  have h := h f (List.mem_range.2 hf) b (mem_bools b)
  rcases h with h | ⟨d, _, e, _, g, _, c, _, hfit, hs⟩
  · rw [hd] at h; exact absurd h (by simp)
  · let flags : Nat → Bool := fun x => if x = g then c else two d e x
    have h1 : flags FLG_DISTINCTEXTERNALNAMES = d := by
      simp only [fits, Bool.and_eq_true, Bool.or_eq_true, bne_iff_ne, beq_iff_eq] at hfit
      by_cases hg : g = FLG_DISTINCTEXTERNALNAMES
      · have := hfit.1.resolve_left (by simpa using hg)
        simp [flags, hg, this]
      · simp [flags, Ne.symm hg, two]
    have h2 : flags FLG_DISTINCTINTERNALNAMES = e := by
      simp only [fits, Bool.and_eq_true, Bool.or_eq_true, bne_iff_ne, beq_iff_eq] at hfit
      by_cases hg : g = FLG_DISTINCTINTERNALNAMES
      · have := hfit.2.resolve_left (by simpa using hg)
        simp [flags, hg, this]
      · simp [flags, Ne.symm hg, two]
    refine ⟨flags, g, ?_⟩
    rw [setFlagAux_flags]
    show lastOf (sets (acts flags f b)) g (flags g) ≠ _
    rw [acts_two, h1, h2, Spec.after]
    have hc : flags g = c := by simp [flags]
    rw [hc]
    intro h
    rw [same, h] at hs
    simp at hs

/-! ### Modes -/

/-- The settings that setting `f` to `b` makes when `f` is not one of the flags whose effect depends
on the state. -/
def effect (f : Nat) (b : Bool) : List (Nat × Bool) := sets (acts (two true true) f b)

def dependent : List Nat :=
  [FLG_EXTERNALNAMECASEINSENSITIVE, FLG_INTERNALNAMECASEINSENSITIVE, FLG_INTERNALNAMELOOKALIKE]

theorem acts_indep {f : Nat} (h : dependent.contains f = false) (fl fl' : Nat → Bool) (b : Bool) :
    acts fl f b = acts fl' f b := by
  simp only [dependent, List.contains_cons, List.contains_nil, Bool.or_false, Bool.or_eq_false_iff,
    beq_eq_false_iff_ne] at h
  unfold acts
  simp only [if_neg h.1, if_neg h.2.1, if_neg h.2.2]

/-- The settings made by a sequence of settings. -/
def effects (l : List (Nat × Bool)) : List (Nat × Bool) := l.flatMap fun p => effect p.1 p.2

theorem foldl_setFlag_flags (l : List (Nat × Bool)) (h : ∀ p ∈ l, dependent.contains p.1 = false)
    (s : St) (g : Nat) :
    (l.foldl (fun s p => setFlag s p.1 p.2) s).flags g = lastOf (effects l) g (s.flags g) := by
  induction l generalizing s with
  | nil => rfl
  | cons p l ih =>
    rw [List.foldl_cons, ih (fun q hq => h q (by simp [hq])), setFlag, setFlagAux_flags]
    rw [acts_indep (h p (by simp)) s.flags (two true true)]
    have : effects (p :: l) = effect p.1 p.2 ++ effects l := by simp [effects]
    rw [this, lastOf_append]; rfl

def modeOps (l : List Nat) : List (Nat × Bool) :=
  ((List.range NUMFLAGS).filter isMode).map (·, false) ++ l.map (·, true)

theorem setMode_eq (s : St) {m : List Char} {l : List Nat} (h : modeTable m = some l) :
    setMode s m = ((modeOps l).foldl (fun s p => setFlag s p.1 p.2) s, true) := by
  simp only [setMode, h, resetModeFlags, modeOps, List.foldl_append, List.foldl_map]

theorem lastOf_const {l : List (Nat × Bool)} {b : Bool} (h : ∀ p ∈ l, p.2 = b) (g : Nat) (c : Bool) :
    lastOf l g c = if g ∈ l.map (·.1) then b else c := by
  induction l generalizing c with
  | nil => simp [lastOf]
  | cons a l ih =>
    show lastOf l g _ = _
    rw [ih (fun p hp => h p (by simp [hp]))]
    have ha := h a (by simp)
    by_cases h1 : a.1 = g
    · simp [h1, ha]
    · simp [h1, Ne.symm h1]

/-- Everything there is to check of a list of flags that are set to `b` one after the other: the
flags set are those of the list, and they are mode flags. -/
def checkSets (l : List Nat) (b : Bool) : Bool :=
  let eff := effects (l.map (·, b))
  l.all (fun f => !dependent.contains f && isMode f && Nat.ble (f + 1) NUMFLAGS
    && (effect f b).any (fun p => p.1 == f))
  && eff.all (fun p => p.2 == b && l.contains p.1)

set_option maxRecDepth 100000 in
theorem checkSets_reset : checkSets ((List.range NUMFLAGS).filter isMode) false = true := by
  decide +kernel
set_option maxRecDepth 100000 in
theorem checkSets_standard : checkSets mode_standard true = true := by decide +kernel
set_option maxRecDepth 100000 in
theorem checkSets_weak : checkSets mode_weak true = true := by decide +kernel
set_option maxRecDepth 100000 in
theorem checkSets_checks : checkSets mode_checks true = true := by decide +kernel
set_option maxRecDepth 100000 in
theorem checkSets_strict : checkSets mode_strict true = true := by decide +kernel

theorem checkSets_flags {l : List Nat} {b : Bool} (h : checkSets l b = true) (s : St) (g : Nat) :
    ((l.map (·, b)).foldl (fun s p => setFlag s p.1 p.2) s).flags g
      = if g ∈ l then b else s.flags g := by
  simp only [checkSets, Bool.and_eq_true, List.all_eq_true, List.any_eq_true, Bool.not_eq_true',
    beq_iff_eq, List.contains_iff_mem] at h
  rw [foldl_setFlag_flags _ (by
    intro p hp
    obtain ⟨f, hf, rfl⟩ := List.mem_map.1 hp
    exact (h.1 f hf).1.1.1)]
  rw [lastOf_const (fun p hp => (h.2 p hp).1)]
  have : g ∈ (effects (l.map (·, b))).map (·.1) ↔ g ∈ l := by
    constructor
    · intro hg
      obtain ⟨p, hp, rfl⟩ := List.mem_map.1 hg
      exact (h.2 p hp).2
    · intro hg
      obtain ⟨p, hp, hpg⟩ := (h.1 g hg).2
      refine List.mem_map.2 ⟨p, ?_, hpg⟩
      exact List.mem_flatMap.2 ⟨(g, b), List.mem_map.2 ⟨g, hg, rfl⟩, hp⟩
  simp only [this]

theorem mem_modeFlags (g : Nat) : g ∈ (List.range NUMFLAGS).filter isMode ↔ isMode g = true := by
  rw [List.mem_filter, List.mem_range]
  constructor
  · exact fun h => h.2
  · intro h
    refine ⟨?_, h⟩
    by_contra hg
    have : table[g]? = none := by
      rw [List.getElem?_eq_none_iff]
      have : table.length = NUMFLAGS := by decide +kernel
      omega
    rw [isMode, this] at h
    simp at h

theorem resetModeFlags_flags (s : St) (g : Nat) :
    (resetModeFlags s).flags g = if isMode g then false else s.flags g := by
  have h := checkSets_flags checkSets_reset s g
  rw [List.foldl_map] at h
  rw [resetModeFlags, h]
  simp only [mem_modeFlags]

theorem modeTable_check {m : List Char} {l : List Nat} (h : modeTable m = some l) :
    checkSets l true = true := by
  unfold modeTable at h
  split_ifs at h <;> cases h
  · exact checkSets_standard
  · exact checkSets_weak
  · exact checkSets_checks
  · exact checkSets_strict

theorem modeTable_mode {m : List Char} {l : List Nat} (h : modeTable m = some l) {f : Nat}
    (hf : f ∈ l) : isMode f = true := by
  have h := modeTable_check h
  simp only [checkSets, Bool.and_eq_true, List.all_eq_true] at h
  exact (h.1 f hf).1.1.2

theorem setMode_flags (s : St) {m : List Char} {l : List Nat} (h : modeTable m = some l) (g : Nat) :
    (setMode s m).1.flags g = if isMode g then l.contains g else s.flags g := by
  have h1 := checkSets_flags (modeTable_check h) (resetModeFlags s) g
  rw [List.foldl_map] at h1
  simp only [setMode, h]
  rw [h1, resetModeFlags_flags]
  by_cases hg : g ∈ l
  · simp [hg, modeTable_mode h hg]
  · simp [hg]

/-! ### What else changes -/

theorem act_false_frame (s : St) (a : Act) :
    (act false s a).saved = s.saved ∧ (act false s a).saveflags = s.saveflags
      ∧ (act false s a).setLocally = s.setLocally ∧ (act false s a).setGlobally = s.setGlobally
      ∧ (act false s a).markers = s.markers := by
  cases a with
  | set f b => exact ⟨rfl, rfl, rfl, rfl, rfl⟩
  | value f v => simp only [act, setValue]; cases storedValue f v <;> exact ⟨rfl, rfl, rfl, rfl, rfl⟩
  | exports => exact ⟨rfl, rfl, rfl, rfl, rfl⟩

theorem act_saved (i : Bool) (s : St) (a : Act) :
    (act i s a).saved = s.saved ∧ (act i s a).saveflags = s.saveflags := by
  cases a with
  | set f b => cases i <;> exact ⟨rfl, rfl⟩
  | value f v => simp only [act, setValue]; cases storedValue f v <;> exact ⟨rfl, rfl⟩
  | exports => exact ⟨rfl, rfl⟩

theorem setFlagAux_saved (s : St) (f : Nat) (b i : Bool) :
    (setFlagAux s f b i).saved = s.saved ∧ (setFlagAux s f b i).saveflags = s.saveflags := by
  unfold setFlagAux
  generalize acts s.flags f b = l
  induction l generalizing s with
  | nil => exact ⟨rfl, rfl⟩
  | cons a l ih =>
    rw [List.foldl_cons]
    obtain ⟨h1, h2⟩ := ih (act i s a)
    obtain ⟨h3, h4⟩ := act_saved i s a
    exact ⟨h1.trans h3, h2.trans h4⟩

theorem foldl_setFlag_saved (l : List Nat) (b : Bool) (s : St) :
    (l.foldl (fun s f => setFlag s f b) s).saved = s.saved
      ∧ (l.foldl (fun s f => setFlag s f b) s).saveflags = s.saveflags := by
  induction l generalizing s with
  | nil => exact ⟨rfl, rfl⟩
  | cons a l ih =>
    rw [List.foldl_cons]
    obtain ⟨h1, h2⟩ := ih (setFlag s a b)
    obtain ⟨h3, h4⟩ := setFlagAux_saved s a b false
    exact ⟨h1.trans h3, h2.trans h4⟩

theorem setMode_saved (s : St) (m : List Char) :
    (setMode s m).1.saved = s.saved ∧ (setMode s m).1.saveflags = s.saveflags := by
  simp only [setMode]
  obtain ⟨h3, h4⟩ := foldl_setFlag_saved ((List.range NUMFLAGS).filter isMode) false s
  cases modeTable m with
  | none => exact ⟨h3, h4⟩
  | some l =>
    obtain ⟨h1, h2⟩ := foldl_setFlag_saved l true (resetModeFlags s)
    exact ⟨h1.trans h3, h2.trans h4⟩

/-- The flags that set values. -/
def valueSetters : List Nat :=
  [FLG_ANSI89LIMITS, FLG_ISO99LIMITS, FLG_EXTERNALNAMECASEINSENSITIVE,
   FLG_INTERNALNAMECASEINSENSITIVE, FLG_INTERNALNAMELOOKALIKE]

/-- Whether a statement sets a value. -/
def isValue : Act → Bool
  | .value _ _ => true
  | _ => false

theorem acts_noValue {f : Nat} (h : valueSetters.contains f = false) (fl : Nat → Bool) (b : Bool) :
    ∀ a ∈ acts fl f b, isValue a = false := by
  have hm : ∀ (l : List Nat) (a : Act), a ∈ l.map (Act.set · b) → isValue a = false := by
    intro l a ha
    obtain ⟨x, _, rfl⟩ := List.mem_map.1 ha
    rfl
  have hm' : ∀ (l : List Nat) (a : Act), a ∈ l.map (Act.set · false) → isValue a = false := by
    intro l a ha
    obtain ⟨x, _, rfl⟩ := List.mem_map.1 ha
    rfl
  simp only [valueSetters, List.contains_cons, List.contains_nil, Bool.or_false,
    Bool.or_eq_false_iff, beq_eq_false_iff_ne] at h
  obtain ⟨h1, h2, h3, h4, h5⟩ := h
  intro a ha
  unfold acts at ha
  simp only [if_neg h1, if_neg h2, if_neg h3, if_neg h4, if_neg h5, List.mem_append] at ha
  rcases ha with ((ha | ha) | ha) | ha
  · rw [List.mem_singleton] at ha; subst ha; rfl
  · split_ifs at ha
    · exact hm _ _ ha
    · exact hm _ _ ha
  · split_ifs at ha <;>
    first
      | exact hm _ _ ha
      | exact hm' _ _ ha
      | (simp only [List.mem_cons, List.not_mem_nil, or_false] at ha
         rcases ha with rfl | rfl <;> rfl)
      | (simp only [List.mem_append, List.mem_singleton, List.not_mem_nil, or_false, false_or] at ha
         rcases ha with ha | ha
         · first | exact hm _ _ ha | (subst ha; rfl)
         · first | exact hm _ _ ha | (subst ha; rfl))
      | (simp only [List.mem_append, List.mem_singleton, List.not_mem_nil, or_false, false_or] at ha
         exact hm _ _ ha)
      | (exact absurd ha (by simp))
  · split_ifs at ha
    · rw [List.mem_singleton] at ha; subst ha; rfl
    · exact absurd ha (by simp)

end Splint.Flag
