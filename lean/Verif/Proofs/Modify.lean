import Verif.Proofs.SRef
import Verif.Spec.Modify
/-! # Modifies clauses -/
namespace Splint
namespace SRef

/-- Each alternative has a listed or free part. -/
def permVal (env : ModEnv) (sl : Mods) (s : SRef) : Bool :=
  s.alts.all fun c => c.any fun u => listed sl u || u.freeRoot env

/-- The clause with the marks of the parts. -/
def markAll (sl : Mods) (s : SRef) : Mods :=
  sl.map fun e => (e.1, e.2 || s.parts.any fun u => u.markable && u.similar e.1)

theorem listed_map (sl : Mods) (f : SRef × Bool → Bool) (s : SRef) :
    listed (sl.map fun e => (e.1, f e)) s = listed sl s := by
  simp only [listed, List.any_map]; rfl

theorem permVal_map (env : ModEnv) (sl : Mods) (f : SRef × Bool → Bool) (s : SRef) :
    permVal env (sl.map fun e => (e.1, f e)) s = permVal env sl s := by
  simp only [permVal, listed_map]

theorem all_or_any (l : List (List SRef)) (b : Bool) (p : SRef → Bool) :
    (l.all fun c => b || c.any p) = (b || l.all fun c => c.any p) := by
  cases b <;> simp

theorem permVal_step (env : ModEnv) (sl : Mods) (s r : SRef) (h : s.alts = r.alts.map (s :: ·))
    (hf : s.freeRoot env = false) : permVal env sl s = (listed sl s || permVal env sl r) := by
  simp only [permVal, h, List.all_map, Function.comp_def, List.any_cons, hf, Bool.or_false]
  exact all_or_any r.alts _ _

theorem permVal_conj (env : ModEnv) (sl : Mods) (a : Nat) (x y : SRef) :
    permVal env sl (conj a x y) = (permVal env sl x && permVal env sl y) := by
  simp [permVal, alts]

theorem permVal_leaf (env : ModEnv) (sl : Mods) (s : SRef) (h : s.alts = [[s]]) :
    permVal env sl s = (listed sl s || s.freeRoot env) := by
  simp [permVal, h]

theorem if_or (a b : Bool) : (if a = true then some true else some b) = some (a || b) := by
  cases a <;> rfl

theorem checkModifyVal_eq (env : ModEnv) (sl : Mods) (s : SRef) (h : s.every notResult = true) :
    checkModifyVal env sl s = some (permVal env sl s) := by
  induction s with
  | cvar a l i =>
    rw [permVal_leaf _ _ _ rfl]
    simp only [checkModifyVal, isFileOrGlobal, fileScope, freeRoot]
    by_cases h1 : l ≤ 1
    · have h2 : ¬ 1 < l := by omega
      cases h3 : checkGlobMod env.flags env.hasMods (env.annotation l i) <;> simp [h1, h2, h3]
    · have h2 : 1 < l := by omega
      simp [h1, h2]
  | param a n => rw [permVal_leaf _ _ _ rfl]; rfl
  | fetch a r i ih =>
    rw [permVal_step env sl _ r rfl rfl, checkModifyVal, ih (by simp_all [every]), if_or]
  | field a r i ih =>
    rw [permVal_step env sl _ r rfl rfl, checkModifyVal, ih (by simp_all [every]), if_or]
  | ptr a r ih =>
    rw [permVal_step env sl _ r rfl rfl, checkModifyVal, ih (by simp_all [every]), if_or]
  | adr a r ih =>
    rw [permVal_step env sl _ r rfl rfl, checkModifyVal, ih (by simp_all [every]), if_or]
  | conj a x y ihx ihy =>
    simp only [every, Bool.and_eq_true] at h
    rw [permVal_conj, checkModifyVal, ihx h.1.2, ihy h.2]
    cases permVal env sl x <;> rfl
  | special a k =>
    rw [permVal_leaf _ _ _ rfl]
    cases k <;> simp [checkModifyVal, freeRoot]
    cases env.flags.internalGlobs <;> simp
  | result a => simp [every, notResult] at h
  | _ => rw [permVal_leaf _ _ _ rfl]; simp [checkModifyVal, freeRoot]

theorem markAll_step (sl : Mods) (s r : SRef) (h : s.parts = s :: r.parts) (hm : s.markable = true) :
    markAll (modifyMember sl s).2 r = markAll sl s := by
  simp only [markAll, modifyMember, List.map_map, h, List.any_cons, hm, Bool.true_and]
  apply List.map_congr_left
  intro e _
  simp [Bool.or_assoc]

theorem markAll_leaf (sl : Mods) (s : SRef) (h : s.parts = [s]) (hm : s.markable = true) :
    markAll sl s = (modifyMember sl s).2 := by
  simp [markAll, modifyMember, h, hm]

theorem markAll_none (sl : Mods) (s : SRef) (h : s.parts = [s]) (hm : s.markable = false) :
    markAll sl s = sl := by
  simp [markAll, h, hm]

theorem markAll_conj (sl : Mods) (a : Nat) (x y : SRef) :
    markAll (markAll sl x) y = markAll sl (conj a x y) := by
  simp only [markAll, List.map_map, parts, List.any_append]
  apply List.map_congr_left
  intro e _
  simp [Bool.or_assoc]

theorem doStep (env : ModEnv) (sl : Mods) (s r : SRef) (ha : s.alts = r.alts.map (s :: ·))
    (hf : s.freeRoot env = false) (h : s.parts = s :: r.parts) (hm : s.markable = true)
    (ih : ∀ sl, doModifyVal env sl r = some (permVal env sl r, markAll sl r)) :
    (do
      let d ← doModifyVal env (modifyMember sl s).2 r
      some ((modifyMember sl s).1 || d.1, d.2)) = some (permVal env sl s, markAll sl s) := by
  rw [ih, permVal_step env sl s r ha hf, markAll_step sl s r h hm]
  simp only [modifyMember, permVal_map]
  rfl

theorem doModifyVal_eq (env : ModEnv) (s : SRef) (h : s.every notResult = true) : ∀ sl : Mods,
    doModifyVal env sl s = some (permVal env sl s, markAll sl s) := by
  induction s with
  | cvar a l i =>
    intro sl
    rw [permVal_leaf _ _ _ rfl]
    simp only [doModifyVal, isFileOrGlobal, fileScope, freeRoot]
    by_cases h1 : l ≤ 1
    · have h2 : ¬ 1 < l := by omega
      rw [markAll_leaf _ _ rfl (by simp [markable, h1])]
      cases h3 : checkGlobMod env.flags env.hasMods (env.annotation l i) <;>
        simp [h1, h2, modifyMember]
    · have h2 : 1 < l := by omega
      rw [markAll_none _ _ rfl (by simp [markable, h1])]
      simp [h1, h2]
  | param a n =>
    intro sl; rw [permVal_leaf _ _ _ rfl, markAll_leaf _ _ rfl rfl]; rfl
  | fetch a r i ih => intro sl; exact doStep env sl _ r rfl rfl rfl rfl (ih (by simp_all [every]))
  | field a r i ih => intro sl; exact doStep env sl _ r rfl rfl rfl rfl (ih (by simp_all [every]))
  | ptr a r ih => intro sl; exact doStep env sl _ r rfl rfl rfl rfl (ih (by simp_all [every]))
  | adr a r ih => intro sl; exact doStep env sl _ r rfl rfl rfl rfl (ih (by simp_all [every]))
  | conj a x y ihx ihy =>
    intro sl
    simp only [every, Bool.and_eq_true] at h
    rw [permVal_conj, doModifyVal, ihx h.1.2, ← markAll_conj]
    simp only [Option.bind_eq_bind, Option.bind_some, ihy h.2]
    rw [show permVal env (markAll sl x) y = permVal env sl y from permVal_map env sl _ y]
  | special a k =>
    intro sl
    rw [permVal_leaf _ _ _ rfl]
    cases k
    · rw [markAll_none _ _ rfl rfl]; simp [doModifyVal, freeRoot]
    · rw [markAll_leaf _ _ rfl rfl]
      simp only [doModifyVal, freeRoot]
      cases env.flags.internalGlobs <;> simp [modifyMember]
    · rw [markAll_none _ _ rfl rfl]; simp [doModifyVal, freeRoot]
    · rw [markAll_leaf _ _ rfl rfl]; simp [doModifyVal, freeRoot, modifyMember]
  | result a => simp [every, notResult] at h
  | _ => intro sl; rw [permVal_leaf _ _ _ rfl, markAll_none _ _ rfl rfl]; simp [doModifyVal, freeRoot]

/-- Each outermost alternative is free or permitted; `internal` says whether the internal state is
free. -/
def permTop (env : ModEnv) (internal : Bool) (sl : Mods) (s : SRef) : Bool :=
  s.tops.all fun t => t.freeTop || (internal && t.isInternal) || permVal env sl t

/-- The clause with the marks of the alternatives that are not free. -/
def markTop (sl : Mods) (s : SRef) : Mods :=
  sl.map fun e => (e.1, e.2 || s.tops.any fun t => !(t.freeTop || t.isInternal) &&
    t.parts.any fun u => u.markable && u.similar e.1)

theorem permTop_one (env : ModEnv) (i : Bool) (sl : Mods) (s : SRef) (h : s.tops = [s]) :
    permTop env i sl s = (s.freeTop || (i && s.isInternal) || permVal env sl s) := by
  simp [permTop, h]

theorem markTop_one (sl : Mods) (s : SRef) (h : s.tops = [s])
    (hf : (s.freeTop || s.isInternal) = false) : markTop sl s = markAll sl s := by
  unfold markTop markAll
  apply List.map_congr_left
  intro e _
  simp only [h, List.any_cons, List.any_nil, hf, Bool.or_false, Bool.not_false, Bool.true_and]

theorem markTop_free (sl : Mods) (s : SRef) (h : s.tops = [s])
    (hf : (s.freeTop || s.isInternal) = true) : markTop sl s = sl := by
  unfold markTop
  simp only [h, List.any_cons, List.any_nil, hf, Bool.not_true, Bool.false_and, Bool.or_false]
  exact List.map_id' sl

theorem permTop_map (env : ModEnv) (i : Bool) (sl : Mods) (f : SRef × Bool → Bool) (s : SRef) :
    permTop env i (sl.map fun e => (e.1, f e)) s = permTop env i sl s := by
  simp only [permTop, permVal_map]

theorem checkModify_field (env : ModEnv) (sl : Mods) (a : Nat) (r : SRef) (f : Nat) :
    checkModify env sl (field a r f) =
      if (field a r f).freeTop then some true else checkModifyVal env sl (field a r f) := by
  cases r <;> rfl

theorem doModify_field (env : ModEnv) (sl : Mods) (a : Nat) (r : SRef) (f : Nat) :
    doModify env sl (field a r f) =
      if (field a r f).freeTop then some (true, sl) else doModifyVal env sl (field a r f) := by
  cases r <;> rfl

theorem checkModify_eq (env : ModEnv) (sl : Mods) (s : SRef) (h : s.every notResult = true) :
    checkModify env sl s = some (permTop env false sl s) := by
  induction s with
  | param a n => rw [permTop_one _ _ _ _ rfl]; simp [checkModify, freeTop]
  | field a r f =>
    rw [permTop_one _ _ _ _ rfl, checkModify_field, checkModifyVal_eq env sl _ h]
    cases hf : (field a r f).freeTop <;> simp
  | conj a x y ihx ihy =>
    simp only [every, Bool.and_eq_true] at h
    rw [checkModify, ihx h.1.2, ihy h.2]
    have : permTop env false sl (conj a x y) = (permTop env false sl x && permTop env false sl y) := by
      simp [permTop, tops]
    rw [this]
    cases permTop env false sl x <;> rfl
  | result a => simp [every, notResult] at h
  | special a k =>
    have e : checkModify env sl (special a k) = checkModifyVal env sl (special a k) := by
      cases k <;> rfl
    rw [permTop_one _ _ _ _ rfl, e, checkModifyVal_eq env sl _ h]; simp [freeTop]
  | cvar a l i =>
    have e : checkModify env sl (cvar a l i) = checkModifyVal env sl (cvar a l i) := rfl
    rw [permTop_one _ _ _ _ rfl, e, checkModifyVal_eq env sl _ h]; simp [freeTop]
  | fetch a r i =>
    have e : checkModify env sl (fetch a r i) = checkModifyVal env sl (fetch a r i) := rfl
    rw [permTop_one _ _ _ _ rfl, e, checkModifyVal_eq env sl _ h]; simp [freeTop]
  | ptr a r =>
    have e : checkModify env sl (ptr a r) = checkModifyVal env sl (ptr a r) := rfl
    rw [permTop_one _ _ _ _ rfl, e, checkModifyVal_eq env sl _ h]; simp [freeTop]
  | adr a r =>
    have e : checkModify env sl (adr a r) = checkModifyVal env sl (adr a r) := rfl
    rw [permTop_one _ _ _ _ rfl, e, checkModifyVal_eq env sl _ h]; simp [freeTop]
  | _ =>
    rw [permTop_one _ _ _ _ rfl, permVal_leaf _ _ _ rfl]; simp [checkModify, freeRoot]

theorem doModify_eq (env : ModEnv) (s : SRef) (h : s.every notResult = true) : ∀ sl : Mods,
    doModify env sl s = some (permTop env true sl s, markTop sl s) := by
  induction s with
  | param a n =>
    intro sl
    rw [permTop_one _ _ _ _ rfl, markTop_free _ _ rfl rfl]; simp [doModify, freeTop]
  | field a r f =>
    intro sl
    rw [permTop_one _ _ _ _ rfl, doModify_field, doModifyVal_eq env _ h sl]
    cases hf : (field a r f).freeTop
    · rw [markTop_one _ _ rfl (by simp [hf, isInternal])]; simp [isInternal]
    · rw [markTop_free _ _ rfl (by simp [hf])]; simp
  | conj a x y ihx ihy =>
    intro sl
    simp only [every, Bool.and_eq_true] at h
    rw [doModify, ihx h.1.2]
    simp only [Option.bind_eq_bind, Option.bind_some, ihy h.2]
    have e1 : permTop env true sl (conj a x y) = (permTop env true sl x && permTop env true sl y) := by
      simp [permTop, tops]
    have e2 : markTop (markTop sl x) y = markTop sl (conj a x y) := by
      simp only [markTop, List.map_map, tops, List.any_append]
      apply List.map_congr_left
      intro e _
      simp [Bool.or_assoc]
    rw [e1, e2, show permTop env true (markTop sl x) y = permTop env true sl y from
      permTop_map env true sl _ y]
  | result a => simp [every, notResult] at h
  | special a k =>
    intro sl
    rw [permTop_one _ _ _ _ rfl]
    by_cases hk : k = .internal
    · subst hk
      rw [markTop_free _ _ rfl rfl]; simp [doModify, isInternal]
    · have e : doModify env sl (special a k) = doModifyVal env sl (special a k) := by
        cases k <;> simp_all [doModify, doModifyVal]
      have hi : (special a k).isInternal = false := by cases k <;> simp_all [isInternal]
      rw [e, doModifyVal_eq env _ h sl, markTop_one _ _ rfl (by simp [hi, freeTop])]
      simp [freeTop, hi]
  | cvar a l i =>
    intro sl
    have e : doModify env sl (cvar a l i) = doModifyVal env sl (cvar a l i) := rfl
    rw [permTop_one _ _ _ _ rfl, e, doModifyVal_eq env _ h sl, markTop_one _ _ rfl rfl]
    simp [freeTop, isInternal]
  | fetch a r i =>
    intro sl
    have e : doModify env sl (fetch a r i) = doModifyVal env sl (fetch a r i) := rfl
    rw [permTop_one _ _ _ _ rfl, e, doModifyVal_eq env _ h sl, markTop_one _ _ rfl rfl]
    simp [freeTop, isInternal]
  | ptr a r =>
    intro sl
    have e : doModify env sl (ptr a r) = doModifyVal env sl (ptr a r) := rfl
    rw [permTop_one _ _ _ _ rfl, e, doModifyVal_eq env _ h sl, markTop_one _ _ rfl rfl]
    simp [freeTop, isInternal]
  | adr a r =>
    intro sl
    have e : doModify env sl (adr a r) = doModifyVal env sl (adr a r) := rfl
    rw [permTop_one _ _ _ _ rfl, e, doModifyVal_eq env _ h sl, markTop_one _ _ rfl rfl]
    simp [freeTop, isInternal]
  | _ =>
    intro sl
    rw [permTop_one _ _ _ _ rfl, permVal_leaf _ _ _ rfl, markTop_one _ _ rfl rfl,
      markAll_none _ _ rfl rfl]
    simp [doModify, freeRoot]

theorem rootBaseAux_part (s : SRef) (h : s.every notConj = true) : ∀ (n : Nat) (r : SRef),
    rootBaseAux n s = some r → r ∈ s.parts := by
  induction s with
  | fetch a r i ih =>
    intro n u hu
    cases n with
    | zero => simp [rootBaseAux] at hu
    | succ n => exact List.mem_cons_of_mem _ (ih (by simp_all [every]) n u hu)
  | field a r i ih =>
    intro n u hu
    cases n with
    | zero => simp [rootBaseAux] at hu
    | succ n => exact List.mem_cons_of_mem _ (ih (by simp_all [every]) n u hu)
  | ptr a r ih =>
    intro n u hu
    cases n with
    | zero => simp [rootBaseAux] at hu
    | succ n => exact List.mem_cons_of_mem _ (ih (by simp_all [every]) n u hu)
  | adr a r ih =>
    intro n u hu
    cases n with
    | zero => simp [rootBaseAux] at hu
    | succ n => exact List.mem_cons_of_mem _ (ih (by simp_all [every]) n u hu)
  | conj a x y => simp [every, notConj] at h
  | _ =>
    intro n u hu
    cases n with
    | zero => simp [rootBaseAux] at hu
    | succ n => simp only [rootBaseAux, Option.some.injEq] at hu; subst hu; simp [parts]

theorem alts_single (s : SRef) (h : s.every notConj = true) : s.alts = [s.parts] := by
  induction s with
  | conj a x y => simp [every, notConj] at h
  | fetch a r i ih => simp [alts, parts, ih (by simp_all [every])]
  | field a r i ih => simp [alts, parts, ih (by simp_all [every])]
  | ptr a r ih => simp [alts, parts, ih (by simp_all [every])]
  | adr a r ih => simp [alts, parts, ih (by simp_all [every])]
  | _ => rfl

theorem tops_single (s : SRef) (h : s.every notConj = true) : s.tops = [s] := by
  cases s <;> first | rfl | simp [every, notConj] at h

/-- Whether a modification is reported, for references without merges. -/
theorem modification_eq (env : ModEnv) (sl : Mods) (s : SRef) (hc : s.every notConj = true)
    (hr : s.every notResult = true) (hm : env.flags.modifies = true)
    (hh : (env.hasMods || env.flags.modNoMods) = true) :
    modification env sl s = some (!permTop env env.flags.mustMod sl s,
      if env.flags.mustMod then markTop sl s else sl) := by
  have hcan : canModify env sl s = some (permTop env env.flags.mustMod sl s,
      if env.flags.mustMod then markTop sl s else sl) := by
    unfold canModify
    cases hmm : env.flags.mustMod
    · simp [checkModify_eq env sl s hr]
    · simp [doModify_eq env s hr sl]
  unfold modification
  rw [hm, hh, hcan]
  simp only [Bool.and_self, if_true, Option.bind_eq_bind, Option.bind_some]
  cases hp : permTop env env.flags.mustMod sl s with
  | true => simp
  | false =>
    simp only [Bool.false_eq_true, if_false, Bool.not_false]
    cases hb : s.rootBase with
    | none => rfl
    | some r =>
      have hmem := rootBaseAux_part s hc _ r hb
      cases r with
      | cvar a l i =>
        simp only
        rw [if_neg]
        intro hfree
        simp only [isFileOrGlobal, Bool.and_eq_true, Bool.not_eq_true'] at hfree
        have hfr : (cvar a l i).freeRoot env = true := by simp [freeRoot, hfree.2]
        have : permVal env sl s = true := by
          unfold permVal
          rw [alts_single s hc]
          simp only [List.all_cons, List.all_nil, Bool.and_true, List.any_eq_true]
          exact ⟨_, hmem, by simp [hfr]⟩
        rw [permTop_one _ _ _ _ (tops_single s hc), this] at hp
        simp at hp
      | _ => rfl

end SRef
end Splint
