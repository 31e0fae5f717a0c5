import Verif.Props.SRefSet
import Verif.Props.Modify
import Verif.Spec.CallModify
/-!
# C124: modifications through calls
-/
namespace Splint
namespace SRef

theorem origin_fixConj (s : SRef) : s.fixConj.origin = s.origin := by
  induction s with
  | conj a x y ihx ihy => simpa only [fixConj, origin] using ihx
  | _ => rfl

theorem rootBaseAux_origin : ∀ (n : Nat) (s : SRef), s.wraps ≤ n →
    rootBaseAux (n + 1) s = some s.origin := by
  intro n
  induction n with
  | zero => intro s h; cases s <;> first | rfl | simp [wraps] at h
  | succ n ih =>
    intro s h
    cases s with
    | fetch a r i => exact ih r (by simp only [wraps] at h; omega)
    | field a r f => exact ih r (by simp only [wraps] at h; omega)
    | ptr a r => exact ih r (by simp only [wraps] at h; omega)
    | adr a r => exact ih r (by simp only [wraps] at h; omega)
    | conj a x y =>
      have := ih x.fixConj (by have := wraps_fixConj x; simp only [wraps] at h; omega)
      rw [origin_fixConj] at this
      exact this
    | _ => rfl

theorem rootBase_origin (s : SRef) (h : s.wraps ≤ 25) : s.rootBase = some s.origin :=
  rootBaseAux_origin 25 s h

theorem rootIsChecked_eq (env : ModEnv) (s : SRef) (h : s.wraps ≤ 25) :
    rootIsChecked env s = !unannotated env s := by
  unfold rootIsChecked unannotated
  rw [rootBase_origin s h]
  cases s.origin with
  | cvar a l i =>
    simp only [isFileOrGlobal, fileScope]
    cases env.annotation l i <;> by_cases hl : l ≤ 1 <;> simp [hl, isCheckedModify]
  | _ => rfl

theorem rootIsLocal_eq (s : SRef) (h : s.wraps ≤ 25) : rootIsLocal s = startsLocal s := by
  unfold rootIsLocal startsLocal
  rw [rootBase_origin s h]
  cases s.origin <;> rfl

theorem permVal_forbidden (env : ModEnv) (sl : Mods) (s : SRef) :
    permVal env sl s = false ↔ Forbidden env sl s := by
  simp only [permVal, Forbidden, listed, List.all_eq_false, List.any_eq_true, Bool.or_eq_true,
    Bool.not_eq_true]
  constructor
  · rintro ⟨c, hc, h⟩
    refine ⟨c, hc, fun u hu => ?_⟩
    constructor
    · intro e he
      by_contra hh
      exact h ⟨u, hu, Or.inl ⟨e, he, by simpa using hh⟩⟩
    · by_contra hh
      exact h ⟨u, hu, Or.inr (by simpa using hh)⟩
  · rintro ⟨c, hc, h⟩
    refine ⟨c, hc, ?_⟩
    rintro ⟨u, hu, ⟨e, he, h1⟩ | h1⟩
    · rw [(h u hu).1 e he] at h1; cases h1
    · rw [(h u hu).2] at h1; cases h1

/-- The clause after storage has been looked at. -/
def markIf (must : Bool) (sl : Mods) (s : SRef) : Mods := if must then markAll sl s else sl

theorem canModifyVal_eq (env : ModEnv) (sl : Mods) (s : SRef) (h : s.every notResult = true) :
    canModifyVal env sl s = some (permVal env sl s, markIf env.flags.mustMod sl s) := by
  unfold canModifyVal markIf
  cases env.flags.mustMod
  · rw [checkModifyVal_eq env sl s h]; rfl
  · exact doModifyVal_eq env s h sl

/-- What is reported. -/
def Reportable (env : ModEnv) (sl : Mods) (s : SRef) : Prop :=
  Forbidden env sl s ∧ unannotated env s = false

instance (env : ModEnv) (sl : Mods) (s : SRef) : Decidable (Reportable env sl s) := by
  unfold Reportable; infer_instance

theorem callModifyAux_eq (env : CallEnv) (sl : Mods) (s : SRef) (al : Option SRef)
    (h : Answered env s) (hm : env.own.flags.modifies = true) :
    callModifyAux env sl s al =
      some (if Reportable env.own sl s then callReport env s al else (false, []),
        markIf env.own.flags.mustMod sl s) := by
  obtain ⟨h1, h2, h3⟩ := h
  unfold callModifyAux
  rw [h3, hm, canModifyVal_eq _ _ _ h1]
  simp only [Bool.false_eq_true, if_false, if_true, Option.bind_eq_bind, Option.bind_some]
  cases hp : permVal env.own sl s with
  | true =>
    have : ¬ Reportable env.own sl s := by
      intro hr
      rw [(permVal_forbidden _ _ _).2 hr.1] at hp
      cases hp
    simp [this]
  | false =>
    have hf := (permVal_forbidden _ _ _).1 hp
    rw [rootIsChecked_eq _ _ h2]
    cases hu : unannotated env.own s with
    | true =>
      have : ¬ Reportable env.own sl s := by rintro ⟨_, hr⟩; rw [hu] at hr; cases hr
      simp [this]
    | false =>
      have : Reportable env.own sl s := ⟨hf, hu⟩
      simp [this]

theorem markIf_fst (b : Bool) (sl : Mods) (s : SRef) :
    ∃ f : SRef × Bool → Bool, markIf b sl s = sl.map fun e => (e.1, f e) := by
  cases b
  · exact ⟨fun e => e.2, by simp [markIf]⟩
  · exact ⟨_, rfl⟩

theorem reportable_map (env : ModEnv) (sl : Mods) (f : SRef × Bool → Bool) (s : SRef) :
    Reportable env (sl.map fun e => (e.1, f e)) s ↔ Reportable env sl s := by
  unfold Reportable
  rw [← permVal_forbidden, ← permVal_forbidden, permVal_map]

theorem reportable_markIf (env : ModEnv) (b : Bool) (sl : Mods) (t s : SRef) :
    Reportable env (markIf b sl t) s ↔ Reportable env sl s := by
  obtain ⟨f, hf⟩ := markIf_fst b sl t
  rw [hf, reportable_map]

/-- The aliases that are looked at. -/
def looked (env : CallEnv) (error : Bool) (t : SRef) (l : List SRef) : List SRef :=
  l.filter fun c => !c.similar t || (error && env.sameName c t)

def markList (b : Bool) (sl : Mods) (l : List SRef) : Mods := l.foldl (markIf b) sl

theorem reportable_markList (env : ModEnv) (b : Bool) (l : List SRef) (s : SRef) : ∀ sl : Mods,
    (Reportable env (markList b sl l) s ↔ Reportable env sl s) := by
  induction l with
  | nil => intro sl; exact Iff.rfl
  | cons c l ih => intro sl; exact (ih _).trans (reportable_markIf env b sl c s)

open Classical in
/-- The reports for storage reached through an alias. -/
noncomputable def repsOf (env : CallEnv) (sl : Mods) (al : Option SRef) (u : SRef) : List CallReport :=
  if Reportable env.own sl u then (callReport env u al).2 else []

theorem repsOf_congr (env : CallEnv) (sl sl' : Mods) (al : Option SRef) (u : SRef)
    (h : Reportable env.own sl u ↔ Reportable env.own sl' u) : repsOf env sl al u = repsOf env sl' al u := by
  unfold repsOf
  simp only [h]

theorem repsOf_markIf (env : CallEnv) (b : Bool) (sl : Mods) (t : SRef) (al : Option SRef) :
    repsOf env (markIf b sl t) al = repsOf env sl al := by
  funext u
  exact repsOf_congr env _ _ al u (reportable_markIf env.own b sl t u)

theorem aliasLoop_eq (env : CallEnv) (error : Bool) (t : SRef) (hm : env.own.flags.modifies = true)
    (l : List SRef) (h : ∀ u ∈ l, Answered env u) : ∀ sl : Mods,
    aliasLoop env error t sl l = some ((looked env error t l).flatMap (repsOf env sl (some t)),
      markList env.own.flags.mustMod sl (looked env error t l)) := by
  induction l with
  | nil => intro sl; rfl
  | cons c l ih =>
    intro sl
    unfold aliasLoop
    have ih := ih (fun u hu => h u (List.mem_cons_of_mem _ hu))
    by_cases hc : (!c.similar t || (error && env.sameName c t)) = true
    · rw [if_pos hc, callModifyAux_eq env sl c (some t) (h c List.mem_cons_self) hm]
      simp only [Option.bind_eq_bind, Option.bind_some, ih]
      simp only [looked, List.filter_cons, hc, if_true, List.flatMap_cons, markList,
        List.foldl_cons, repsOf_markIf]
      congr 3
      unfold repsOf
      split <;> rfl
    · rw [if_neg hc, ih]
      simp only [looked, List.filter_cons, hc]
      rfl

/-- Whether the report for the storage itself is shown, so that its namesakes are looked at. -/
def Again (env : CallEnv) (sl : Mods) (t : SRef) : Prop :=
  Reportable env.own sl t ∧ startsLocal t = false ∧ env.shown (callFlag env t.isSystem) = true

theorem result_again (env : CallEnv) (sl : Mods) (t : SRef) (h : t.wraps ≤ 25) :
    (if Reportable env.own sl t then callReport env t none else (false, [])).1 = true ↔
      Again env sl t := by
  unfold Again callReport isDirect
  rw [rootIsLocal_eq t h]
  by_cases h1 : Reportable env.own sl t
  · cases h2 : startsLocal t <;> simp [h1]
  · simp [h1]

theorem callReport_refs (env : CallEnv) (u : SRef) (al : Option SRef) :
    ∃ r, (callReport env u al).2 = [r] ∧ r.ref = u := by
  unfold callReport
  split
  · split <;> exact ⟨_, rfl, rfl⟩
  · exact ⟨_, rfl, rfl⟩

theorem mem_repsOf (env : CallEnv) (sl : Mods) (al : Option SRef) (u v : SRef) :
    (∃ r ∈ repsOf env sl al u, r.ref = v) ↔ v = u ∧ Reportable env.own sl u := by
  unfold repsOf
  obtain ⟨r, h1, h2⟩ := callReport_refs env u al
  by_cases h : Reportable env.own sl u
  · rw [if_pos h, h1]
    constructor
    · rintro ⟨r', hr, rfl⟩
      rw [List.mem_singleton] at hr
      subst hr
      exact ⟨h2, h⟩
    · rintro ⟨rfl, _⟩
      exact ⟨r, List.mem_singleton_self _, h2⟩
  · rw [if_neg h]
    constructor
    · rintro ⟨r', hr, _⟩; cases hr
    · rintro ⟨_, h'⟩; exact absurd h' h

/-! ## What is reported -/

/-- The reports for one element of the called function's clause. -/
theorem checkCallModifyVal_spec (env : CallEnv) (args : List (Option (Option SRef))) (sl : Mods)
    (s t : SRef) (ht : fixBaseParam env args s = some (some t)) (h1 : Answered env t)
    (h2 : ∀ u ∈ env.aliases t, Answered env u) (hm : env.own.flags.modifies = true) :
    ∃ reps l, checkCallModifyVal env args sl s =
        some (reps, markList env.own.flags.mustMod sl l) ∧
      (∀ u, (∃ r ∈ reps, r.ref = u) ↔ Examined env (Again env sl t) t u ∧ Reportable env.own sl u) ∧
      ∀ u, u ∈ l ↔ Examined env (Again env sl t) t u := by
  have hagain := result_again env sl t h1.2.1
  generalize hx : (if Reportable env.own sl t then callReport env t none else (false, [])) = x at hagain
  have haux : callModifyAux env sl t none = some (x, markIf env.own.flags.mustMod sl t) := by
    rw [callModifyAux_eq env sl t none h1 hm, hx]
  have hx2 : x.2 = repsOf env sl none t := by
    unfold repsOf
    rw [← hx]
    split <;> rfl
  have hlook : ∀ u, u ∈ looked env x.1 t (env.aliases t) ↔
      (u ∈ env.aliases t ∧ (u.similar t = false ∨ (Again env sl t ∧ env.sameName u t = true))) := by
    intro u
    simp only [looked, List.mem_filter, Bool.or_eq_true, Bool.not_eq_true', Bool.and_eq_true, hagain]
  refine ⟨x.2 ++ (looked env x.1 t (env.aliases t)).flatMap (repsOf env sl (some t)),
    t :: looked env x.1 t (env.aliases t), ?_, ?_, ?_⟩
  · unfold checkCallModifyVal
    rw [ht]
    simp only [Option.bind_eq_bind, Option.bind_some]
    rw [haux]
    simp only [Option.bind_some]
    rw [aliasLoop_eq env x.1 t hm _ h2, repsOf_markIf]
    rfl
  · intro u
    have split : (∃ r ∈ x.2 ++ (looked env x.1 t (env.aliases t)).flatMap (repsOf env sl (some t)),
        r.ref = u) ↔ (∃ r ∈ repsOf env sl none t, r.ref = u) ∨
        ∃ c ∈ looked env x.1 t (env.aliases t), ∃ r ∈ repsOf env sl (some t) c, r.ref = u := by
      rw [hx2]
      constructor
      · rintro ⟨r, hr, rfl⟩
        rcases List.mem_append.1 hr with h | h
        · exact Or.inl ⟨r, h, rfl⟩
        · obtain ⟨c, hc, hr⟩ := List.mem_flatMap.1 h
          exact Or.inr ⟨c, hc, r, hr, rfl⟩
      · rintro (⟨r, hr, rfl⟩ | ⟨c, hc, r, hr, rfl⟩)
        · exact ⟨r, List.mem_append_left _ hr, rfl⟩
        · exact ⟨r, List.mem_append_right _ (List.mem_flatMap.2 ⟨c, hc, hr⟩), rfl⟩
    rw [split, mem_repsOf]
    simp only [mem_repsOf, hlook]
    unfold Examined
    constructor
    · rintro (⟨rfl, h⟩ | ⟨c, hc, rfl, h⟩)
      · exact ⟨Or.inl rfl, h⟩
      · exact ⟨Or.inr hc, h⟩
    · rintro ⟨rfl | hc, h⟩
      · exact Or.inl ⟨rfl, h⟩
      · exact Or.inr ⟨u, hc, rfl, h⟩
  · intro u
    rw [List.mem_cons, hlook]
    exact Iff.rfl

theorem markList_map (b : Bool) (l : List SRef) : ∀ sl : Mods,
    ∃ f : SRef × Bool → Bool, markList b sl l = sl.map fun e => (e.1, f e) := by
  induction l with
  | nil => intro sl; exact ⟨fun e => e.2, by simp [markList]⟩
  | cons c l ih =>
    intro sl
    obtain ⟨f, hf⟩ := markIf_fst b sl c
    obtain ⟨g, hg⟩ := ih (markIf b sl c)
    refine ⟨fun e => g (e.1, f e), ?_⟩
    show markList b (markIf b sl c) l = _
    rw [hg, hf, List.map_map]
    rfl

/-- The storage that the element `s` of the called function's clause stands for, and its aliases. -/
def Stands (env : CallEnv) (args : List (Option (Option SRef))) (sl : Mods) (s u : SRef) : Prop :=
  skipped env s = false ∧ ∃ t, fixBaseParam env args s = some (some t) ∧
    Examined env (Again env sl t) t u

theorem skipped_special (env : CallEnv) (s : SRef) : skipped env s = true ↔
    (s.isSpecial = true ∧ s.isSpecInternal = true ∧ env.internalStrict = false) ∨
      (s.isSpecial = false ∧ s.isFileStatic = true ∧ env.otherFile = true) := by
  unfold skipped
  cases s with
  | special a k => cases k <;> simp [internalElement, isSpecial, isSpecInternal, isFileStatic]
  | _ => simp [internalElement, isSpecial, isSpecInternal, isFileStatic]

theorem callElement_skipped (env : CallEnv) (args : List (Option (Option SRef))) (sl : Mods) (s : SRef)
    (h : skipped env s = true) : ∃ f : SRef × Bool → Bool,
    callElement env args sl s = some ([], sl.map fun e => (e.1, f e)) := by
  unfold callElement
  rcases (skipped_special env s).1 h with ⟨h1, h2, h3⟩ | ⟨h1, h2, h3⟩
  · exact ⟨fun e => e.2 || e.1.isInternalState, by simp [h1, h2, h3]⟩
  · exact ⟨fun e => e.2, by simp [h1, h2, h3]⟩

theorem callElement_checked (env : CallEnv) (args : List (Option (Option SRef))) (sl : Mods) (s : SRef)
    (h : skipped env s = false) : callElement env args sl s = checkCallModifyVal env args sl s := by
  have h' : ¬ (skipped env s = true) := by simp [h]
  rw [skipped_special] at h'
  unfold callElement
  cases h1 : s.isSpecial <;> cases h2 : s.isSpecInternal <;> cases h3 : env.internalStrict <;>
    cases h4 : s.isFileStatic <;> cases h5 : env.otherFile <;> simp_all

theorem again_congr (env : CallEnv) (sl sl' : Mods) (t : SRef)
    (h : Reportable env.own sl t ↔ Reportable env.own sl' t) : Again env sl t ↔ Again env sl' t := by
  unfold Again; rw [h]

theorem examined_congr (env : CallEnv) (p q : Prop) (t u : SRef) (h : p ↔ q) :
    Examined env p t u ↔ Examined env q t u := by
  unfold Examined; rw [h]

theorem stands_map (env : CallEnv) (args : List (Option (Option SRef))) (sl : Mods)
    (f : SRef × Bool → Bool) (s u : SRef) :
    Stands env args (sl.map fun e => (e.1, f e)) s u ↔ Stands env args sl s u := by
  unfold Stands
  have : ∀ t, Examined env (Again env (sl.map fun e => (e.1, f e)) t) t u ↔
      Examined env (Again env sl t) t u := fun t =>
    examined_congr env _ _ t u (again_congr env _ _ t (reportable_map env.own sl f t))
  simp only [this]

theorem callElement_spec (env : CallEnv) (args : List (Option (Option SRef))) (sl : Mods) (s : SRef)
    (hm : env.own.flags.modifies = true) (hi : skipped env s = true ∨ Instance env args s) :
    ∃ (reps : List CallReport) (f : SRef × Bool → Bool), callElement env args sl s = some (reps, sl.map fun e => (e.1, f e)) ∧
      ∀ u, (∃ r ∈ reps, r.ref = u) ↔ Stands env args sl s u ∧ Reportable env.own sl u := by
  cases hs : skipped env s with
  | true =>
    obtain ⟨f, hf⟩ := callElement_skipped env args sl s hs
    refine ⟨[], f, hf, fun u => ?_⟩
    constructor
    · rintro ⟨r, hr, _⟩; cases hr
    · rintro ⟨⟨h, _⟩, _⟩; rw [hs] at h; cases h
  | false =>
    have hi : Instance env args s := by
      rcases hi with h | h
      · rw [hs] at h; cases h
      · exact h
    rw [callElement_checked env args sl s hs]
    obtain ⟨t, ht, ha⟩ := hi
    cases t with
    | none =>
      refine ⟨[], fun e => e.2, ?_, fun u => ?_⟩
      · unfold checkCallModifyVal
        rw [ht]
        simp
      · constructor
        · rintro ⟨r, hr, _⟩; cases hr
        · rintro ⟨⟨_, t, h, _⟩, _⟩; rw [ht] at h; cases h
    | some t =>
      obtain ⟨reps, l, h1, h2, _⟩ := checkCallModifyVal_spec env args sl s t ht (ha t rfl).1 (ha t rfl).2 hm
      obtain ⟨f, hf⟩ := markList_map env.own.flags.mustMod l sl
      refine ⟨reps, f, by rw [h1, hf], fun u => ?_⟩
      rw [h2]
      constructor
      · rintro ⟨h3, h4⟩; exact ⟨⟨hs, t, ht, h3⟩, h4⟩
      · rintro ⟨⟨_, t', h, h3⟩, h4⟩
        rw [ht] at h
        cases h
        exact ⟨h3, h4⟩

/-- C124, exactly: a call is reported for the storage that the called function's clause stands for,
and its aliases, exactly if that storage is forbidden and does not start at a global variable without
an annotation. The marks of the clause do not matter. -/
theorem C124_exactly (env : CallEnv) (args : List (Option (Option SRef)))
    (hm : env.own.flags.modifies = true) (mods : List SRef)
    (hi : ∀ s ∈ mods, skipped env s = true ∨ Instance env args s) : ∀ sl : Mods,
    ∃ (reps : List CallReport) (f : SRef × Bool → Bool),
      callModifies env args sl mods = some (reps, sl.map fun e => (e.1, f e)) ∧
      ∀ u, (∃ r ∈ reps, r.ref = u) ↔ ∃ s ∈ mods, Stands env args sl s u ∧
        Forbidden env.own sl u ∧ unannotated env.own u = false := by
  induction mods with
  | nil =>
    intro sl
    refine ⟨[], fun e => e.2, by simp [callModifies], fun u => ?_⟩
    simp
  | cons s l ih =>
    intro sl
    obtain ⟨r1, f, h1, h2⟩ := callElement_spec env args sl s hm (hi s List.mem_cons_self)
    obtain ⟨r2, g, h3, h4⟩ := ih (fun s hs => hi s (List.mem_cons_of_mem _ hs))
      (sl.map fun e => (e.1, f e))
    refine ⟨r1 ++ r2, fun e => g (e.1, f e), ?_, fun u => ?_⟩
    · unfold callModifies
      rw [h1]
      simp only [Option.bind_eq_bind, Option.bind_some, h3, List.map_map]
      rfl
    · have e1 : (∃ r ∈ r1 ++ r2, r.ref = u) ↔ (∃ r ∈ r1, r.ref = u) ∨ ∃ r ∈ r2, r.ref = u := by
        constructor
        · rintro ⟨r, hr, h⟩
          rcases List.mem_append.1 hr with h' | h'
          · exact Or.inl ⟨r, h', h⟩
          · exact Or.inr ⟨r, h', h⟩
        · rintro (⟨r, hr, h⟩ | ⟨r, hr, h⟩)
          · exact ⟨r, List.mem_append_left _ hr, h⟩
          · exact ⟨r, List.mem_append_right _ hr, h⟩
      rw [e1, h2, h4]
      have e2 : ∀ s, (Stands env args (sl.map fun e => (e.1, f e)) s u ∧
          Forbidden env.own (sl.map fun e => (e.1, f e)) u ∧ unannotated env.own u = false) ↔
          (Stands env args sl s u ∧ Reportable env.own sl u) := fun s =>
        and_congr (stands_map env args sl f s u) (reportable_map env.own sl f u)
      simp only [e2]
      show _ ↔ ∃ s' ∈ s :: l, Stands env args sl s' u ∧ Reportable env.own sl u
      simp only [List.mem_cons, exists_eq_or_imp]

/-- C124: a call of a function whose clause, with the arguments in place of the parameters, only names
storage that the caller may modify, and whose aliases it may modify, is not reported. -/
theorem C124_permitted (env : CallEnv) (args : List (Option (Option SRef)))
    (hm : env.own.flags.modifies = true) (mods : List SRef) (sl : Mods)
    (hi : ∀ s ∈ mods, skipped env s = true ∨ Instance env args s)
    (hp : ∀ s ∈ mods, ∀ t, fixBaseParam env args s = some (some t) →
      ¬ Forbidden env.own sl t ∧ ∀ u ∈ env.aliases t, ¬ Forbidden env.own sl u) :
    ∃ sl', callModifies env args sl mods = some ([], sl') := by
  obtain ⟨reps, f, h1, h2⟩ := C124_exactly env args hm mods hi sl
  cases reps with
  | nil => exact ⟨_, h1⟩
  | cons r l =>
    exfalso
    obtain ⟨s, hs, ⟨_, t, ht, hex⟩, hf, _⟩ := (h2 r.ref).1 ⟨r, List.mem_cons_self, rfl⟩
    rcases hex with h | ⟨h, _⟩
    · rw [h] at hf; exact (hp s hs t ht).1 hf
    · exact (hp s hs t ht).2 _ h hf

/-! ## Global variables without an annotation -/

/-- The called function's clause has the one element `s`, which stands for itself and has no aliases:
a call with only this effect. -/
def Plain (env : CallEnv) (args : List (Option (Option SRef))) (s : SRef) : Prop :=
  skipped env s = false ∧ fixBaseParam env args s = some (some s) ∧ env.aliases s = [] ∧ Answered env s

/-- C124 in full: a call that modifies storage is reported exactly if the storage is forbidden. -/
def C124_full : Prop :=
  ∀ (env : CallEnv) (args : List (Option (Option SRef))) (sl : Mods) (s : SRef), Plain env args s →
    env.own.flags.modifies = true → env.own.hasMods = true →
    ∃ reps sl', callModifies env args sl [s] = some (reps, sl') ∧ (reps ≠ [] ↔ Forbidden env.own sl s)

theorem plain_stands (env : CallEnv) (args : List (Option (Option SRef))) (sl : Mods) (s u : SRef)
    (h : Plain env args s) : Stands env args sl s u ↔ u = s := by
  obtain ⟨h1, h2, h3, _⟩ := h
  constructor
  · rintro ⟨_, t, ht, hex⟩
    rw [h2] at ht
    cases ht
    rcases hex with h | ⟨h, _⟩
    · exact h
    · rw [h3] at h; cases h
  · rintro rfl
    exact ⟨h1, _, h2, Or.inl rfl⟩

/-- C124: a call with one effect is reported exactly if the storage is forbidden and does not start at
a global variable without an annotation. Missing: those variables (`C124_full_is_false`). -/
theorem C124_plain_exactly (env : CallEnv) (args : List (Option (Option SRef))) (sl : Mods) (s : SRef)
    (h : Plain env args s) (hm : env.own.flags.modifies = true) :
    ∃ reps sl', callModifies env args sl [s] = some (reps, sl') ∧
      (reps ≠ [] ↔ Forbidden env.own sl s ∧ unannotated env.own s = false) := by
  have hi : ∀ s' ∈ [s], skipped env s' = true ∨ Instance env args s' := by
    intro s' hs'
    rw [List.mem_singleton] at hs'
    subst hs'
    refine Or.inr ⟨some s', h.2.1, ?_⟩
    intro t ht
    cases ht
    exact ⟨h.2.2.2, by rw [h.2.2.1]; simp⟩
  obtain ⟨reps, f, h1, h2⟩ := C124_exactly env args hm [s] hi sl
  refine ⟨reps, _, h1, ?_⟩
  constructor
  · intro hne
    obtain ⟨r, hr⟩ := List.exists_mem_of_ne_nil reps hne
    obtain ⟨s', hs', hst, hf⟩ := (h2 r.ref).1 ⟨r, hr, rfl⟩
    rw [List.mem_singleton] at hs'
    subst hs'
    rw [plain_stands env args sl s' _ h] at hst
    rw [hst] at hf
    exact hf
  · rintro hf rfl
    have := (h2 s).2 ⟨s, List.mem_singleton_self _, (plain_stands env args sl s s h).2 rfl, hf⟩
    obtain ⟨r, hr, _⟩ := this
    cases hr

/-- C124, partial: without such variables, a call is reported exactly if the storage is forbidden.
Missing: global variables without an annotation. -/
theorem C124_partial (env : CallEnv) (args : List (Option (Option SRef))) (sl : Mods) (s : SRef)
    (h : Plain env args s) (hm : env.own.flags.modifies = true) (hu : unannotated env.own s = false) :
    ∃ reps sl', callModifies env args sl [s] = some (reps, sl') ∧
      (reps ≠ [] ↔ Forbidden env.own sl s) := by
  obtain ⟨reps, sl', h1, h2⟩ := C124_plain_exactly env args sl s h hm
  exact ⟨reps, sl', h1, by simp [h2, hu]⟩

/-- An environment for examples: a function with a clause, `+allglobals`, variables with annotation
`k`. -/
def sampleEnv (k : ChKind) : CallEnv where
  own := ⟨⟨true, true, true, true, true, true, false, true, false⟩, true, fun _ _ => k, fun _ => false⟩
  modObserver := true
  internalStrict := false
  observer := fun s => s.addr == 99
  aliases := fun s => if s.addr == 50 then [cvar 51 0 7] else []
  sameName := fun s t => decide (s = t)
  shown := fun _ => true
  place := fun _ => 1000
  equivalent := fun s t => decide (s = t)
  otherFile := true

/-- `int g; void f (void) /*@modifies g@*/; void h (void) /*@modifies nothing@*/ { f (); }` with
`+allglobals`: the call is not reported. -/
theorem C124_full_is_false : ¬ C124_full := by
  intro h
  obtain ⟨reps, sl', h1, h2⟩ := h (sampleEnv .unknown) [] [] (cvar 1 0 3)
    ⟨rfl, rfl, rfl, rfl, by decide, rfl⟩ rfl rfl
  have e : callModifies (sampleEnv .unknown) [] [] [cvar 1 0 3] = some ([], []) := by decide +kernel
  rw [e] at h1
  cases h1
  exact h2.2 (by decide +kernel) rfl

/-- C124, the other way: a modification of a global variable without an annotation that is forbidden
is reported if the function makes it itself, and not if it calls a function that makes it. -/
theorem C124_unannotated (env : CallEnv) (args : List (Option (Option SRef))) (sl : Mods) (s : SRef)
    (h : Plain env args s) (hm : env.own.flags.modifies = true) (hh : env.own.hasMods = true)
    (hc : s.every notConj = true) (hu : unannotated env.own s = true)
    (hf : Forbidden env.own sl s) :
    (∃ sl', modification env.own sl s = some (true, sl')) ∧
      ∃ sl', callModifies env args sl [s] = some ([], sl') := by
  constructor
  · have hft : s.freeTop = false := by
      cases s with
      | param a n => simp [unannotated, origin] at hu
      | field a r f =>
        cases r with
        | param b n => simp [unannotated, origin] at hu
        | _ => rfl
      | _ => rfl
    have hin : s.isInternal = false := by
      cases s with
      | special a k => simp [unannotated, origin] at hu
      | _ => rfl
    refine ⟨if env.own.flags.mustMod then markTop sl s else sl,
      (modification_eq env.own sl s hc h.2.2.2.1 hm (by simp [hh])).trans ?_⟩
    rw [permTop_one _ _ _ _ (tops_single s hc), (permVal_forbidden _ _ _).2 hf, hft, hin]
    simp
  · obtain ⟨reps, sl', h1, h2⟩ := C124_plain_exactly env args sl s h hm
    cases reps with
    | nil => exact ⟨sl', h1⟩
    | cons r l =>
      have := (h2.1 (by simp)).2
      rw [hu] at this
      cases this

example : Plain (sampleEnv .unchecked) [] (field 1000 (cvar 1 0 3) 4) ∧
    Forbidden (sampleEnv .unchecked).own [(cvar 5 0 4, false)] (field 1000 (cvar 1 0 3) 4) ∧
    unannotated (sampleEnv .unchecked).own (cvar 1 0 3) = true :=
  ⟨⟨rfl, rfl, rfl, rfl, by decide, rfl⟩, by decide +kernel, rfl⟩

example : (callModifies (sampleEnv .checked) [] [(cvar 5 0 4, false)] [cvar 1 0 3]).map (·.1) =
    some [⟨.modifies, .modification, cvar 1 0 3, none⟩] := by decide +kernel

/-! ## Observers, internal state and static variables -/

/-- C124: storage that is an observer is reported as such, and not as an undocumented modification,
whether or not the caller's clause lists it. -/
theorem C124_observer (env : CallEnv) (args : List (Option (Option SRef))) (sl : Mods) (s t : SRef)
    (hs : skipped env s = false) (ht : fixBaseParam env args s = some (some t))
    (ho : env.observer t = true) (hf : env.modObserver = true) (ha : env.aliases t = []) :
    callModifies env args sl [s] = some ([⟨.modObserver, .observer, t, none⟩], sl) := by
  unfold callModifies
  rw [callElement_checked env args sl s hs]
  unfold checkCallModifyVal callModifyAux
  rw [ht]
  simp [ho, hf, ha, isDirect, aliasLoop, callModifies]

example : skipped (sampleEnv .checked) (ptr 3 (param 2 0)) = false ∧
    fixBaseParam (sampleEnv .checked) [some (some (adr 4 (cvar 99 0 6)))] (ptr 3 (param 2 0)) =
      some (some (cvar 99 0 6)) ∧ (sampleEnv .checked).observer (cvar 99 0 6) = true := by decide

/-- C124: without `+modinternalstrict`, a function that modifies internal state may be called by one
that has no permission to; every mention of internal state in the caller's clause then counts as
used. -/
theorem C124_internal (env : CallEnv) (args : List (Option (Option SRef))) (sl : Mods) (s : SRef)
    (hs : s.internalElement = true) (hi : env.internalStrict = false) :
    ∃ sl', callModifies env args sl [s] = some ([], sl') ∧
      sl' = sl.map fun e => (e.1, e.2 || e.1.isInternal) := by
  refine ⟨_, ?_, rfl⟩
  unfold callModifies callElement
  cases s with
  | special a k =>
    have : (special a k).isSpecInternal = true := hs
    simp only [isSpecial, this, hi, if_true, Bool.false_eq_true, if_false, Option.bind_eq_bind,
      Option.bind_some, callModifies, List.append_nil]
    congr 3
  | _ => simp [internalElement] at hs

/-- With the flag, the internal state has to be listed if `+internalglobs` is set. -/
theorem C124_internal_strict (env : CallEnv) (args : List (Option (Option SRef))) (sl : Mods) (a : Nat)
    (hi : env.internalStrict = true) (hm : env.own.flags.modifies = true)
    (ha : env.aliases (special a .internal) = [])
    (ho : env.observer (special a .internal) = false) :
    ∃ reps sl', callModifies env args sl [special a .internal] = some (reps, sl') ∧
      (reps ≠ [] ↔ env.own.flags.internalGlobs = true ∧
        ∀ e ∈ sl, (special a SpecKind.internal).similar e.1 = false) := by
  obtain ⟨reps, sl', h1, h2⟩ := C124_plain_exactly env args sl (special a .internal)
    ⟨by simp [skipped, hi, isFileStatic], rfl, ha, rfl, by simp [wraps], by simp [ho]⟩ hm
  refine ⟨reps, sl', h1, h2.trans ?_⟩
  simp only [Forbidden, alts, List.mem_singleton, exists_eq_left, forall_eq, freeRoot,
    Bool.not_eq_false', unannotated, origin, and_true]
  exact And.comm

/-- C124: static variables of the called function's file are not looked at from other files, whatever
their annotation, and nothing is marked. -/
theorem C124_static (env : CallEnv) (args : List (Option (Option SRef))) (sl : Mods) (a : Nat) (i : Int)
    (h : env.otherFile = true) : callModifies env args sl [cvar a 1 i] = some ([], sl) := by
  simp [callModifies, callElement, isSpecial, isFileStatic, fileScope, h]

/-- But their parts are, as if they were parts of the variable with that number in the caller's
file. -/
theorem C124_static_part : ∃ (env : CallEnv) (s : SRef), env.otherFile = true ∧
    callModifies env [] [] [cvar 1 1 3] = some ([], []) ∧
    callModifies env [] [] [field 1000 (cvar 1 1 3) 4] =
      some ([⟨.modifies, .modification, field 1000 (cvar 1 1 3) 4, none⟩], []) ∧
    callModifies env [] [(s, false)] [field 1000 (cvar 1 1 3) 4] = some ([], [(s, false)]) :=
  ⟨sampleEnv .checked, cvar 7 1 3, rfl, by decide +kernel, by decide +kernel, by decide +kernel⟩

/-! ## Flags and marks -/

/-- C124: the flag of a report: `modfilesystem` for the file system itself, otherwise `mods` if the
caller has a clause and `modnomods` if it has none. -/
theorem C124_flag (env : CallEnv) (u : SRef) (al : Option SRef)
    (hh : (env.own.hasMods || env.own.flags.modNoMods) = true)
    (hd : al = none ∨ u.isSystem = false) (hw : u.wraps ≤ 25) :
    ∃ r, (callReport env u al).2 = [r] ∧ r.ref = u ∧
      r.flag = if u.isSystem then CallFlag.modFileSystem
        else if env.own.hasMods then .modifies else .modNoMods := by
  unfold callReport callFlag
  rcases hd with rfl | hs
  · simp only [isDirect, if_true, rootIsLocal_eq u hw, hh]
    cases hl : startsLocal u with
    | false => simp
    | true =>
      have : u.isSystem = false := by
        cases u with
        | special a k => simp [startsLocal, origin] at hl
        | _ => rfl
      simp [this]
  · simp only [hs, Bool.false_eq_true, if_false]
    split
    · split <;> exact ⟨_, rfl, rfl, rfl⟩
    · exact ⟨_, rfl, rfl, rfl⟩

example : ((sampleEnv .checked).own.hasMods || (sampleEnv .checked).own.flags.modNoMods) = true ∧
    (special 4 .system).wraps ≤ 25 := by decide

theorem markList_mark (l : List SRef) : ∀ (sl : Mods), ∃ f : SRef × Bool → Bool,
    markList true sl l = sl.map (fun e => (e.1, f e)) ∧ ∀ e, f e = true ↔ e.2 = true ∨
      ∃ u ∈ l, ∃ p ∈ u.parts, p.markable = true ∧ p.similar e.1 = true := by
  induction l with
  | nil => intro sl; exact ⟨fun e => e.2, by simp [markList], by simp⟩
  | cons c l ih =>
    intro sl
    obtain ⟨g, hg, hg'⟩ := ih (markIf true sl c)
    refine ⟨fun e => g (e.1, e.2 || c.parts.any fun u => u.markable && u.similar e.1), ?_, ?_⟩
    · show markList true (markIf true sl c) l = _
      rw [hg]
      simp only [markIf, if_true, markAll, List.map_map]
      rfl
    · intro e
      rw [hg']
      simp only [Bool.or_eq_true, List.any_eq_true, Bool.and_eq_true, List.mem_cons,
        exists_eq_or_imp]
      rw [or_assoc]

/-- C124, with `+mustmod`: after the call an element of the caller's clause counts as used exactly if
it did before, or something that was looked at is, or is part of, its storage. -/
theorem C124_marks (env : CallEnv) (args : List (Option (Option SRef))) (sl : Mods) (s t : SRef)
    (hs : skipped env s = false) (ht : fixBaseParam env args s = some (some t)) (h1 : Answered env t)
    (h2 : ∀ u ∈ env.aliases t, Answered env u) (hm : env.own.flags.modifies = true)
    (hu : env.own.flags.mustMod = true) :
    ∃ reps, ∃ f : SRef × Bool → Bool, callModifies env args sl [s] = some (reps, sl.map fun e => (e.1, f e)) ∧
      ∀ e, f e = true ↔ e.2 = true ∨ ∃ u, Examined env (Again env sl t) t u ∧
        ∃ p ∈ u.parts, p.markable = true ∧ p.similar e.1 = true := by
  obtain ⟨reps, l, h3, _, h5⟩ := checkCallModifyVal_spec env args sl s t ht h1 h2 hm
  obtain ⟨f, hf, hf'⟩ := markList_mark l sl
  refine ⟨reps, f, ?_, ?_⟩
  · unfold callModifies
    rw [callElement_checked env args sl s hs, h3, hu, hf]
    simp [callModifies]
  · intro e
    rw [hf']
    simp only [h5]

example : Answered (sampleEnv .checked) (ptr 50 (param 2 0)) ∧
    ∀ u ∈ (sampleEnv .checked).aliases (ptr 50 (param 2 0)), Answered (sampleEnv .checked) u :=
  ⟨⟨rfl, by decide, rfl⟩, by
    intro u hu
    have : u = cvar 51 0 7 := by simpa [sampleEnv, addr] using hu
    subst this
    exact ⟨rfl, by decide, rfl⟩⟩

/-! ## Arguments in place of parameters -/

/-- Elements, fields and targets of the parameter `n`. -/
def onParam (n : Int) : SRef → Bool
  | param _ m => decide (m = n)
  | fetch _ r _ | field _ r _ | ptr _ r => r.onParam n
  | _ => false

theorem makePointer_notAdr (place : SRef → Nat) (r : SRef) (h : r.notAdr = true) :
    makePointer place (some r) = some (ptr (place (ptr 0 r)) r) := by
  cases r <;> first | rfl | simp [notAdr] at h

/-- C124: with an argument that is not an address, what an element of the clause stands for is
reached from the argument as the element is from the parameter. -/
theorem C124_argument (env : CallEnv) (args : List (Option (Option SRef))) (n : Int) (r : SRef)
    (hn : 0 ≤ n) (ha : args[n.toNat]? = some (some (some r))) (hr : r.notAdr = true) (s : SRef)
    (hs : s.onParam n = true) :
    ∃ t, fixBaseParam env args s = some (some t) ∧ t.notAdr = true ∧
      ∀ p, t.MayDenote p ↔ ∃ q l, r.MayDenote q ∧ s.MayDenote ⟨.param n, l⟩ ∧ p = ⟨q.root, l ++ q.steps⟩ := by
  induction s with
  | param a m =>
    have hm : m = n := by simpa [onParam] using hs
    subst hm
    refine ⟨r, ?_, hr, ?_⟩
    · simp [fixBaseParam, argument, Int.not_lt.2 hn, ha]
    · intro p
      simp only [MayDenote, Access.mk.injEq, true_and]
      constructor
      · intro h; exact ⟨p, [], h, rfl, rfl⟩
      · rintro ⟨q, l, h, rfl, rfl⟩; exact h
  | fetch a b i ih =>
    obtain ⟨t, h1, h2, h3⟩ := ih hs
    refine ⟨_, by rw [fixBaseParam, h1]; rfl, rfl, fun p => ?_⟩
    cases i with
    | some i =>
      simp only [MayDenote, h3]
      constructor
      · rintro ⟨_, ⟨q, l, hq, hl, rfl⟩, rfl⟩
        exact ⟨q, .elem i :: l, hq, ⟨_, hl, rfl⟩, rfl⟩
      · rintro ⟨q, l, hq, ⟨q', hq', he⟩, rfl⟩
        obtain ⟨e1, rfl⟩ := Access.mk.injEq .. ▸ he
        exact ⟨_, ⟨q, q'.steps, hq, by rw [e1]; exact hq', rfl⟩, rfl⟩
    | none =>
      simp only [MayDenote, h3]
      constructor
      · rintro ⟨_, i, ⟨q, l, hq, hl, rfl⟩, rfl⟩
        exact ⟨q, .elem i :: l, hq, ⟨_, i, hl, rfl⟩, rfl⟩
      · rintro ⟨q, l, hq, ⟨q', i, hq', he⟩, rfl⟩
        obtain ⟨e1, rfl⟩ := Access.mk.injEq .. ▸ he
        exact ⟨_, i, ⟨q, q'.steps, hq, by rw [e1]; exact hq', rfl⟩, rfl⟩
  | field a b f ih =>
    obtain ⟨t, h1, h2, h3⟩ := ih hs
    refine ⟨_, by rw [fixBaseParam, h1]; rfl, rfl, fun p => ?_⟩
    simp only [MayDenote, h3]
    constructor
    · rintro ⟨_, ⟨q, l, hq, hl, rfl⟩, rfl⟩
      exact ⟨q, .field f :: l, hq, ⟨_, hl, rfl⟩, rfl⟩
    · rintro ⟨q, l, hq, ⟨q', hq', he⟩, rfl⟩
      obtain ⟨e1, rfl⟩ := Access.mk.injEq .. ▸ he
      exact ⟨_, ⟨q, q'.steps, hq, by rw [e1]; exact hq', rfl⟩, rfl⟩
  | ptr a b ih =>
    obtain ⟨t, h1, h2, h3⟩ := ih hs
    refine ⟨_, by rw [fixBaseParam, h1, Option.map_some, makePointer_notAdr _ _ h2], rfl, fun p => ?_⟩
    simp only [MayDenote, h3]
    constructor
    · rintro ⟨_, i, ⟨q, l, hq, hl, rfl⟩, rfl⟩
      exact ⟨q, .elem i :: l, hq, ⟨_, i, hl, rfl⟩, rfl⟩
    · rintro ⟨q, l, hq, ⟨q', i, hq', he⟩, rfl⟩
      obtain ⟨e1, rfl⟩ := Access.mk.injEq .. ▸ he
      exact ⟨_, i, ⟨q, q'.steps, hq, by rw [e1]; exact hq', rfl⟩, rfl⟩
  | _ => simp [onParam] at hs

/-- C124: with the argument `&x`, the target of the parameter is `x`. -/
theorem C124_address (env : CallEnv) (args : List (Option (Option SRef))) (n : Int) (a b c : Nat) (x : SRef)
    (hn : 0 ≤ n) (ha : args[n.toNat]? = some (some (some (adr a x)))) :
    fixBaseParam env args (ptr b (param c n)) = some (some x) := by
  simp [fixBaseParam, argument, Int.not_lt.2 hn, ha, makePointer]

/-- C124: an argument that is missing, or that could not be analysed, stands for unknown storage, for
which nothing is reported. -/
theorem C124_unknown (env : CallEnv) (args : List (Option (Option SRef))) (n : Int) (a : Nat) (sl : Mods)
    (hn : 0 ≤ n) (ha : args[n.toNat]? = none ∨ args[n.toNat]? = some none)
    (ho : ∀ b, env.observer (unknown b) = false) (hl : ∀ b, env.aliases (unknown b) = [])
    (hm : env.own.flags.modifies = true) :
    ∃ sl', callModifies env args sl [param a n] = some ([], sl') := by
  have hfix : fixBaseParam env args (param a n) = some (some (unknown (env.place (unknown 0)))) := by
    rcases ha with h | h <;> simp only [fixBaseParam, argument, Int.not_lt.2 hn, h, if_false]
  refine C124_permitted env args hm [param a n] sl ?_ ?_
  · intro s hs
    rw [List.mem_singleton] at hs
    subst hs
    refine Or.inr ⟨_, hfix, ?_⟩
    intro t ht
    cases ht
    exact ⟨⟨rfl, by simp [wraps], by simp [ho]⟩, by simp [hl]⟩
  · intro s hs t ht
    rw [List.mem_singleton] at hs
    subst hs
    rw [hfix] at ht
    cases ht
    refine ⟨?_, by simp [hl]⟩
    rintro ⟨c, hc, hu⟩
    simp only [alts, List.mem_singleton] at hc
    subst hc
    have := (hu _ (List.mem_singleton_self _)).2
    simp [freeRoot] at this

example : fixBaseParam (sampleEnv .checked) [some (some (field 1 (param 2 3) 4))]
    (field 5 (ptr 6 (param 7 0)) 8) =
      some (some (field 1000 (ptr 1000 (field 1 (param 2 3) 4)) 8)) := by decide

/-- C124: the address of storage that the argument makes a target is the pointer, that of the first
element of an array the array, and any other address is new. -/
theorem C124_address_of (env : CallEnv) (args : List (Option (Option SRef))) (n : Int) (a b : Nat) (r : SRef)
    (hn : 0 ≤ n) (ha : args[n.toNat]? = some (some (some r))) :
    fixBaseParam env args (adr a (param b n)) = some (some
      (match r with
        | ptr _ x => x
        | fetch _ x (some i) => if i = 0 then x else adr (env.place (adr 0 r)) r
        | _ => adr (env.place (adr 0 r)) r)) := by
  simp only [fixBaseParam, argument, Int.not_lt.2 hn, ha, if_false, Option.map_some]
  cases r with
  | fetch c x i =>
    cases i with
    | none => rfl
    | some i =>
      by_cases hi : i = 0
      · subst hi; rfl
      · simp only [hi, if_false]
        unfold makeAddress
        split
        · contradiction
        · rename_i h; cases h
        · rename_i h; cases h; exact absurd rfl hi
        · rename_i h; cases h; rfl
  | _ => rfl

example : fixBaseParam (sampleEnv .checked) [some (some (fetch 1 (param 2 3) (some 0)))]
    (adr 5 (param 7 0)) = some (some (param 2 3)) := by decide

/-- C124: an element with alternatives stands for both, or for the first if they become equivalent;
an alternative without storage is a failed assertion. -/
theorem C124_merged (env : CallEnv) (args : List (Option (Option SRef))) (a : Nat) (x y : SRef) :
    (∀ u v, fixBaseParam env args x = some (some u) → fixBaseParam env args y = some (some v) →
      fixBaseParam env args (conj a x y) = some (some
        (if env.equivalent u v then u else conj (env.place (conj 0 u v)) u v))) ∧
    (fixBaseParam env args x = some none → fixBaseParam env args (conj a x y) = none) := by
  constructor
  · intro u v hu hv
    simp only [fixBaseParam, hu, hv, Option.bind_eq_bind, Option.bind_some, makeConj]
    split <;> rfl
  · intro hu
    simp only [fixBaseParam, hu, Option.bind_eq_bind, Option.bind_some]
    cases fixBaseParam env args y <;> simp [makeConj]

/-- C124: a parameter with a negative number is a failed assertion. -/
theorem C124_negative (env : CallEnv) (args : List (Option (Option SRef))) (sl : Mods) (a : Nat) (n : Int)
    (hn : n < 0) : callModifies env args sl [param a n] = none := by
  simp [callModifies, callElement, isSpecial, isFileStatic, checkCallModifyVal, fixBaseParam, argument, hn]

/-- C124: with `-mods` nothing is reported, but with `+mustmod` the elements of the clause still count
as used. -/
theorem C124_mods_off (env : CallEnv) (args : List (Option (Option SRef))) (sl : Mods) (s t : SRef)
    (hs : skipped env s = false) (ht : fixBaseParam env args s = some (some t))
    (ha : env.aliases t = []) (h1 : Answered env t) (hm : env.own.flags.modifies = false) :
    callModifies env args sl [s] = some ([], sl.map fun e => (e.1, e.2 ||
      (env.own.flags.mustMod && t.parts.any fun p => p.markable && p.similar e.1))) := by
  unfold callModifies
  rw [callElement_checked env args sl s hs]
  unfold checkCallModifyVal callModifyAux
  rw [ht]
  simp only [Option.bind_eq_bind, Option.bind_some, h1.2.2, hm, Bool.false_eq_true, if_false]
  rw [canModifyVal_eq _ _ _ h1.1, ha]
  cases hmm : env.own.flags.mustMod
  · simp [aliasLoop, callModifies]
  · simp [aliasLoop, callModifies, markIf, markAll]

end SRef
end Splint
