import Verif.Tactics
import Verif.Spec.Declarator
/-!
# C131: the types of declarators
-/
namespace Splint
namespace Declarator

/-! ### Helpers -/

theorem strip_ptrs (n : Nat) (c : CT) : strip (ptrs n c) = strip c := by
  induction n with
  | zero => rfl
  | succ n ih => simpa [ptrs, strip] using ih

theorem strip_arrays (l : List (Option Nat)) (c : CT) : strip (arrayType l c) = strip c := by
  induction l with
  | nil => rfl
  | cons k l ih => cases k <;> simpa [arrayType, strip] using ih

theorem baseIsExp_ptrs (n : Nat) (c : CT) : baseIsExp (ptrs n c) = baseIsExp c := by
  unfold baseIsExp; rw [strip_ptrs]

theorem baseIsExp_arrays (l : List (Option Nat)) (c : CT) : baseIsExp (arrayType l c) = baseIsExp c := by
  unfold baseIsExp; rw [strip_arrays]

theorem newBase_ptrs (n : Nat) (c p : CT) (h : baseIsExp c = false) :
    newBase (ptrs n c) p = (newBase c p).map (ptrs n) := by
  induction n with
  | zero => cases h' : newBase c p <;> simp [ptrs, h']
  | succ n ih =>
    have h1 : baseIsExp (.ptr (ptrs n c)) = false := by rw [← h]; exact baseIsExp_ptrs (n + 1) c
    simp only [ptrs, newBase, h1, Bool.false_eq_true, if_false, ih, Option.map_map]
    rfl

theorem newBase_arrays (l : List (Option Nat)) (c p : CT) (h : baseIsExp c = false) :
    newBase (arrayType l c) p = (newBase c p).map (arrayType l) := by
  induction l with
  | nil => cases h' : newBase c p <;> simp [arrayType, h']
  | cons k l ih =>
    cases k with
    | none =>
      have h1 : baseIsExp (.arr (arrayType l c)) = false := by rw [← h]; exact baseIsExp_arrays (none :: l) c
      simp only [arrayType, newBase, h1, Bool.false_eq_true, if_false, ih, Option.map_map]
      rfl
    | some k =>
      have h1 : baseIsExp (.farr (arrayType l c) k) = false := by rw [← h]; exact baseIsExp_arrays (some k :: l) c
      simp only [arrayType, newBase, h1, Bool.false_eq_true, if_false, ih, Option.map_map]
      rfl

theorem adjust_other (n : Nat) (c : CT) (h : asFunction c = none) : adjust n c = newBase c (ptrs n (strip c)) := by
  cases c with
  | fcn r q => simp [asFunction] at h
  | ptr c => cases c <;> first | rfl | simp [asFunction] at h
  | _ => rfl

theorem makeFunction_other (c : CT) (ps : Nat) (h : asFunction c = none) : makeFunction c ps = .fcn c ps := by
  cases c with
  | fcn r q => simp [asFunction] at h
  | ptr c => cases c <;> first | rfl | simp [asFunction] at h
  | _ => rfl

/-- No function below the pointers and arrays. -/
theorem asFunction_none (c : CT) (h : isFcn (strip c) = false) : asFunction c = none := by
  cases c with
  | fcn r q => simp [strip, isFcn] at h
  | ptr c => cases c <;> first | rfl | simp [strip, isFcn] at h
  | _ => rfl

theorem ptrs_add (n m : Nat) (c : CT) : ptrs n (ptrs m c) = ptrs (n + m) c := by
  induction n with
  | zero => simp [ptrs]
  | succ n ih => rw [Nat.succ_add]; simp only [ptrs, ih]

theorem cType_arrays (l : List (Option Nat)) : ∀ (d : Dcl) (t : CT), cType (arrays d l) t = cType d (arrayType l t) := by
  induction l with
  | nil => intro d t; rfl
  | cons k l ih => intro d t; cases k <;> simp [arrays, ih, cType, arrayType]

theorem arrayType_append (l k : List (Option Nat)) (t : CT) : arrayType (l ++ k) t = arrayType l (arrayType k t) := by
  induction l with
  | nil => rfl
  | cons a l ih => cases a <;> simp [arrayType, ih]

theorem innerArr_arrays (l : List (Option Nat)) (c : CT) (h : isArr c = false) :
    innerArr (arrayType l c) = arrayType (l ++ [none]) c := by
  induction l with
  | nil => cases c <;> first | rfl | simp [isArr] at h
  | cons a l ih => cases a <;> simp [arrayType, innerArr, ih]

theorem innerFixed_arrays (l : List (Option Nat)) (c : CT) (k : Nat) (h : isArr c = false) :
    innerFixed (arrayType l c) k = arrayType (l ++ [some k]) c := by
  induction l with
  | nil => cases c <;> first | rfl | simp [isArr] at h
  | cons a l ih => cases a <;> simp [arrayType, innerFixed, ih]

def isExp : CT → Bool
  | .exp _ => true
  | _ => false

theorem notExpecting_other (c : CT) (h : isExp c = false) : notExpecting c = c := by
  cases c <;> first | rfl | simp [isExp] at h

/-- More brackets. -/
theorem read_arrays (named : Bool) (c : CT) (hc : isArr c = false) : ∀ (l2 l : List (Option Nat)) (d : Dcl),
    readD named d = some (arrayType l c) → (named = true → l = [] → isExp c = false ∨ l2.head? ≠ some (l2.head?.join) ∨
      l2.head? = some none ∨ l2 = []) →
    readD named (arrays d l2) = some (arrayType (l ++ l2) c) := by
  intro l2
  induction l2 with
  | nil => intro l d h _; simpa [arrays] using h
  | cons a l2 ih =>
    intro l d h hn
    have happ : l ++ a :: l2 = (l ++ [a]) ++ l2 := by simp
    rw [happ]
    cases a with
    | none =>
      refine ih (l ++ [none]) (.arr d) ?_ (fun _ h => by simp at h)
      simp only [readD, h, Option.map_some, innerArr_arrays l c hc]
    | some k =>
      refine ih (l ++ [some k]) (.farr d k) ?_ (fun _ h => by simp at h)
      simp only [readD, h, Option.map_some]
      cases named with
      | false => simp only [Bool.false_eq_true, if_false, innerFixed_arrays l c k hc]
      | true =>
        have hne : notExpecting (arrayType l c) = arrayType l c := by
          apply notExpecting_other
          cases l with
          | nil =>
            rcases hn rfl rfl with h | h | h | h
            · exact h
            · simp at h
            · simp at h
            · cases h
          | cons b l => cases b <;> rfl
        simp only [if_true, hne, innerFixed_arrays l c k hc]

theorem starred_arrays (n m : Nat) (l : List (Option Nat)) :
    starred n (arrayType l (ptrs m .unknown)) = some (arrayType l (ptrs m (ptrs n .unknown))) := by
  unfold starred
  split
  · next h => subst h; rfl
  · have hs : strip (arrayType l (ptrs m .unknown)) = .unknown := by rw [strip_arrays, strip_ptrs]; rfl
    rw [adjust_other _ _ (asFunction_none _ (by rw [hs]; rfl)), hs,
      newBase_arrays _ _ _ (by rw [baseIsExp_ptrs]; rfl), newBase_ptrs _ _ _ rfl]
    rfl

theorem newBase_all (m n : Nat) (l : List (Option Nat)) (t : CT) :
    newBase (arrayType l (ptrs m (ptrs n .unknown))) t = some (arrayType l (ptrs m (ptrs n t))) := by
  rw [ptrs_add, newBase_arrays _ _ _ (by rw [baseIsExp_ptrs]; rfl), newBase_ptrs _ _ _ rfl, ptrs_add]
  rfl

/-! ### Without parentheses -/

theorem read_dims (named : Bool) (l : List (Option Nat)) : readD named (arrays .id l) = some (arrayType l .unknown) := by
  have := read_arrays named .unknown rfl l [] .id rfl (fun _ _ => Or.inl rfl)
  simpa using this

/-- **C131**: pointers and arrays of any dimensions are read as in C. -/
theorem C131_arrays (named : Bool) (n : Nat) (l : List (Option Nat)) (t : CT) :
    declared named n (arrays .id l) t = some (cDeclared n (arrays .id l) t) := by
  unfold declared cDeclared
  rw [read_dims, cType_arrays]
  have h := starred_arrays n 0 l
  simp only [ptrs] at h
  simp only [h]
  exact newBase_all 0 n l t

/-- **C131**: a function with a pointer as its value is read as in C. -/
theorem C131_function (named : Bool) (n : Nat) (ps : Nat) (t : CT) :
    declared named n (.fcn .id ps) t = some (cDeclared n (.fcn .id ps) t) := by
  have h1 : starred n (.fcn .unknown ps) = some (.fcn (ptrs n .unknown) ps) := by
    unfold starred
    split
    · next h => subst h; rfl
    · simp only [adjust, newBase, strip, Option.map_some]
      rw [makeFunction_other _ _ (asFunction_none _ (by rw [strip_ptrs]; rfl))]
  have h2 : baseIsExp (.fcn (ptrs n .unknown) ps) = false := by
    unfold baseIsExp
    simp only [strip, strip_ptrs]
  unfold declared
  simp only [readD, Option.map_some, makeFunction, h1, newBase, h2, Bool.false_eq_true, if_false]
  rw [newBase_ptrs _ _ _ rfl]
  rfl

/-! ### Parentheses -/

theorem expect_isExp (c : CT) : ∃ e, expect c = .exp e := by
  unfold expect
  split
  · exact ⟨_, rfl⟩
  · exact ⟨_, rfl⟩

theorem read_paren (named : Bool) (m : Nat) (d : Dcl) (c : CT) (h : readD named (.paren m d) = some c) :
    ∃ e, c = .exp e := by
  simp only [readD] at h
  cases hd : readD named d with
  | none => rw [hd] at h; cases h
  | some c0 =>
    rw [hd] at h
    simp only at h
    rw [Option.map_eq_some_iff] at h
    obtain ⟨c1, -, rfl⟩ := h
    exact expect_isExp c1

theorem starred_exp (n : Nat) (e : CT) : starred n (.exp e) = some (ptrs n (.exp e)) := by
  unfold starred
  split
  · next h => subst h; rfl
  · rfl

theorem newBase_exp (n : Nat) (e t : CT) : newBase (ptrs n (.exp e)) t = some (ptrs n t) := by
  rw [newBase_ptrs _ _ _ rfl]
  rfl

/-- **C131**, what parentheses around the whole declarator do: whatever is in them is lost, unless an internal error
is reported for it. -/
theorem C131_paren_lost (named : Bool) (n m : Nat) (d : Dcl) (t : CT) (h : readD named (.paren m d) ≠ none) :
    declared named n (.paren m d) t = some (ptrs n t) := by
  cases hr : readD named (.paren m d) with
  | none => exact absurd hr h
  | some c =>
    obtain ⟨e, rfl⟩ := read_paren named m d c hr
    unfold declared
    simp only [hr, starred_exp]
    exact newBase_exp n e t

/-- The size of a type. -/
def size : CT → Nat
  | .unknown | .base _ => 0
  | .ptr c | .arr c | .farr c _ | .fcn c _ | .exp c => size c + 1

theorem size_ptrs (n : Nat) (t : CT) : size (ptrs n t) = n + size t := by
  induction n with
  | zero => simp [ptrs]
  | succ n ih => simp only [ptrs, size, ih]; omega

theorem size_cType : ∀ (d : Dcl) (t : CT), size t ≤ size (cType d t)
  | .id, t => le_refl _
  | .paren n d, t => by
    have := size_cType d (ptrs n t)
    rw [size_ptrs] at this
    simp only [cType]
    omega
  | .arr d, t => by have := size_cType d (.arr t); simp only [cType, size] at this ⊢; omega
  | .farr d k, t => by have := size_cType d (.farr t k); simp only [cType, size] at this ⊢; omega
  | .fcn d k, t => by have := size_cType d (.fcn t k); simp only [cType, size] at this ⊢; omega

theorem cType_trivial : ∀ (d : Dcl) (t : CT), cType d t = t ↔ Trivial d
  | .id, t => by simp [cType, Trivial]
  | .paren n d, t => by
    simp only [cType, Trivial]
    constructor
    · intro h
      have h1 := size_cType d (ptrs n t)
      rw [h, size_ptrs] at h1
      have hn : n = 0 := by omega
      subst hn
      exact ⟨rfl, (cType_trivial d t).1 h⟩
    · rintro ⟨rfl, h⟩
      exact (cType_trivial d t).2 h
  | .arr d, t => by
    simp only [cType, Trivial, iff_false]
    intro h
    have := size_cType d (.arr t)
    rw [h] at this
    simp only [size] at this
    omega
  | .farr d k, t => by
    simp only [cType, Trivial, iff_false]
    intro h
    have := size_cType d (.farr t k)
    rw [h] at this
    simp only [size] at this
    omega
  | .fcn d k, t => by
    simp only [cType, Trivial, iff_false]
    intro h
    have := size_cType d (.fcn t k)
    rw [h] at this
    simp only [size] at this
    omega

theorem read_trivial (named : Bool) : ∀ (d : Dcl), Trivial d → ∃ c, readD named d = some c
  | .id, _ => ⟨_, rfl⟩
  | .paren n d, ⟨hn, hd⟩ => by
    obtain ⟨c, hc⟩ := read_trivial named d hd
    refine ⟨expect c, ?_⟩
    simp [readD, hc, hn, starred]

/-- **C131**: a declarator in parentheses as a whole is read as in C exactly if there is just a name in them. -/
theorem C131_paren_exactly (named : Bool) (n m : Nat) (d : Dcl) (t : CT) :
    declared named n (.paren m d) t = some (cDeclared n (.paren m d) t) ↔ Trivial (.paren m d) := by
  constructor
  · intro h
    have hr : readD named (.paren m d) ≠ none := by
      intro hr
      unfold declared at h
      rw [hr] at h
      cases h
    rw [C131_paren_lost named n m d t hr, Option.some.injEq] at h
    exact (cType_trivial _ _).1 h.symm
  · intro h
    obtain ⟨c, hc⟩ := read_trivial named _ h
    rw [C131_paren_lost named n m d t (by rw [hc]; simp)]
    unfold cDeclared
    rw [(cType_trivial _ _).2 h]

/-! ### Pointers to functions -/

theorem isAP_arrays (l : List (Option Nat)) (m : Nat) (h : 0 < m ∨ l ≠ []) :
    isAP (arrayType l (ptrs m .unknown)) = true := by
  cases l with
  | nil =>
    rcases h with h | h
    · cases m with
      | zero => omega
      | succ m => rfl
    · exact absurd rfl h
  | cons a l => cases a <;> rfl

theorem starred_dims (m : Nat) (l : List (Option Nat)) :
    starred m (arrayType l .unknown) = some (arrayType l (ptrs m .unknown)) := by
  have := starred_arrays m 0 l
  simpa [ptrs] using this

theorem read_inner (named : Bool) (m : Nat) (l : List (Option Nat)) (h : 0 < m ∨ l ≠ []) :
    readD named (.paren m (arrays .id l)) = some (.exp (arrayType l (ptrs m .unknown))) := by
  simp only [readD, read_dims, starred_dims, Option.map_some, expect, isAP_arrays l m h, if_true]

theorem adjust_exp (n : Nat) (e : CT) : adjust n (.exp e) = some (ptrs n (.exp e)) := rfl

theorem starred_fcn_exp (n : Nat) (e : CT) (ps : Nat) :
    starred n (.fcn (.exp e) ps) = some (.fcn (ptrs n (.exp e)) ps) := by
  unfold starred
  split
  · next h => subst h; rfl
  · simp only [adjust, newBase, strip, Option.map_some]
    rw [makeFunction_other _ _ (asFunction_none _ (by rw [strip_ptrs]; rfl))]

theorem baseIsExp_fcn (n : Nat) (e : CT) (ps : Nat) : baseIsExp (.fcn (ptrs n (.exp e)) ps) = true := by
  unfold baseIsExp
  simp only [strip, strip_ptrs]

theorem valueLoop_ptrs (e : CT) : ∀ (n : Nat) (t : CT), valueLoop (ptrs n (.exp e)) t = some (ptrs n t)
  | 0, t => rfl
  | n + 1, t => by
    simp only [ptrs, valueLoop, valueLoop_ptrs e n]
    have : ptrs n (.ptr t) = ptrs n (ptrs 1 t) := rfl
    rw [this, ptrs_add]
    rfl

theorem newBase_fcn_exp (n : Nat) (e : CT) (ps : Nat) (t : CT) :
    newBase (.fcn (ptrs n (.exp e)) ps) t =
      (fpLoop e .unknown ps).map fun r => resultLoop r.1 (.fcn (ptrs n t) r.2) := by
  simp only [newBase, baseIsExp_fcn, if_true, newBaseExp, asFunction, strip_ptrs, strip, valueLoop_ptrs]
  cases fpLoop e .unknown ps <;> rfl

theorem ptr_arrayTypes_ptrs (m : Nat) (c : CT) : ptrs m (.ptr c) = .ptr (ptrs m c) := by
  have : ptrs m (.ptr c) = ptrs m (ptrs 1 c) := rfl
  rw [this, ptrs_add]
  rfl

theorem arrayTypes_arr (k : Nat) (c : CT) : arrayTypes k (.arr c) = .arr (arrayTypes k c) := by
  induction k with
  | zero => rfl
  | succ k ih => simp only [arrayTypes, ih]

theorem fpLoop_ptrs (a : Nat) : ∀ (m : Nat) (fp : CT), fpLoop (ptrs m .unknown) fp a = some (ptrs m fp, a)
  | 0, fp => rfl
  | m + 1, fp => by
    simp only [ptrs, fpLoop, fpLoop_ptrs a m, ptr_arrayTypes_ptrs]

theorem fpLoop_arrays (a m : Nat) : ∀ (l : List (Option Nat)) (fp : CT),
    fpLoop (arrayType l (ptrs m .unknown)) fp a = some (ptrs m (arrayTypes l.length fp), a)
  | [], fp => fpLoop_ptrs a m fp
  | none :: l, fp => by simp only [arrayType, fpLoop, fpLoop_arrays a m l, List.length_cons, arrayTypes, arrayTypes_arr]
  | some k :: l, fp => by simp only [arrayType, fpLoop, fpLoop_arrays a m l, List.length_cons, arrayTypes, arrayTypes_arr]

theorem resultLoop_arrays : ∀ (k : Nat) (r : CT), resultLoop (arrayTypes k .unknown) r = arrayTypes k r
  | 0, r => rfl
  | k + 1, r => by simp only [arrayTypes, resultLoop, resultLoop_arrays k, arrayTypes_arr]

theorem resultLoop_ptrs (k : Nat) : ∀ (m : Nat) (r : CT),
    resultLoop (ptrs m (arrayTypes k .unknown)) r = arrayTypes k (ptrs m r)
  | 0, r => resultLoop_arrays k r
  | m + 1, r => by simp only [ptrs, resultLoop, resultLoop_ptrs k m, ptr_arrayTypes_ptrs]

/-- What is made of pointers to functions, and arrays of them. -/
theorem C131_function_pointer (named : Bool) (n m ps : Nat) (l : List (Option Nat)) (t : CT) (h : 0 < m ∨ l ≠ []) :
    declared named n (.fcn (.paren m (arrays .id l)) ps) t =
      some (arrayTypes l.length (ptrs m (.fcn (ptrs n t) ps))) := by
  unfold declared
  have hr : readD named (.fcn (.paren m (arrays .id l)) ps) = some (.fcn (.exp (arrayType l (ptrs m .unknown))) ps) := by
    rw [readD, read_inner named m l h]; rfl
  simp only [hr, starred_fcn_exp, newBase_fcn_exp, fpLoop_arrays, Option.map_some, resultLoop_ptrs]

theorem arrayType_sizes (x : CT) : ∀ (l : List (Option Nat)),
    arrayTypes l.length x = arrayType l x ↔ ∀ k ∈ l, k = none
  | [] => by simp [arrayTypes, arrayType]
  | none :: l => by simp [arrayTypes, arrayType, arrayType_sizes x l]
  | some k :: l => by simp [arrayTypes, arrayType]

/-- **C131**: pointers to functions, and arrays of them, are read as in C exactly if the arrays have no sizes. -/
theorem C131_function_pointer_exactly (named : Bool) (n m ps : Nat) (l : List (Option Nat)) (t : CT)
    (h : 0 < m ∨ l ≠ []) :
    declared named n (.fcn (.paren m (arrays .id l)) ps) t =
        some (cDeclared n (.fcn (.paren m (arrays .id l)) ps) t) ↔ ∀ k ∈ l, k = none := by
  rw [C131_function_pointer named n m ps l t h, Option.some.injEq, cDeclared, cType, cType, cType_arrays, cType,
    arrayType_sizes]

/-- A function whose name is in parentheses is taken for a pointer to a function. -/
theorem C131_name_in_parens (named : Bool) (n ps : Nat) (t : CT) :
    declared named n (.fcn (.paren 0 .id) ps) t = some (.ptr (.fcn (ptrs n t) ps)) := by
  unfold declared
  have hr : readD named (.fcn (.paren 0 .id) ps) = some (.fcn (.exp (.ptr .unknown)) ps) := rfl
  simp only [hr, starred_fcn_exp, newBase_fcn_exp]
  rfl

/-! ### Pointers to arrays -/

/-- What is made of brackets after parentheses, if the first one has a size: the parentheses are passed over. -/
theorem C131_pointer_to_array (n m k : Nat) (l l2 : List (Option Nat)) (t : CT) (h : 0 < m ∨ l ≠ []) :
    declared true n (arrays (.farr (.paren m (arrays .id l)) k) l2) t =
      some (cDeclared (m + n) (arrays .id (l ++ some k :: l2)) t) := by
  have hc : ∀ m, isArr (ptrs m .unknown) = false := by intro m; cases m <;> rfl
  have hx : ∀ m, isExp (ptrs m .unknown) = false := by intro m; cases m <;> rfl
  have hr : readD true (.farr (.paren m (arrays .id l)) k) = some (arrayType (l ++ [some k]) (ptrs m .unknown)) := by
    rw [readD, read_inner true m l h]
    simp only [Option.map_some, if_true, notExpecting, innerFixed_arrays l _ k (hc m)]
  have hr2 := read_arrays true (ptrs m .unknown) (hc m) l2 (l ++ [some k]) _ hr (fun _ h => by simp at h)
  unfold declared
  simp only [hr2, starred_arrays, newBase_all]
  rw [cDeclared, cType_arrays, ptrs_add]
  simp [cType]

/-- **C131**: so a pointer to an array is taken for an array of pointers: it is read as in C only if there are no
stars. -/
theorem C131_pointer_to_array_exactly (n m k : Nat) (l l2 : List (Option Nat)) (t : CT) (h : 0 < m ∨ l ≠ []) :
    declared true n (arrays (.farr (.paren m (arrays .id l)) k) l2) t =
        some (cDeclared n (arrays (.farr (.paren m (arrays .id l)) k) l2) t) ↔ m = 0 := by
  rw [C131_pointer_to_array n m k l l2 t h, Option.some.injEq]
  simp only [cDeclared, cType_arrays, cType, arrayType_append, arrayType]
  have hinj : ∀ (l : List (Option Nat)) (a b : CT), arrayType l a = arrayType l b ↔ a = b := by
    intro l a b
    induction l with
    | nil => rfl
    | cons x l ih => cases x <;> simp [arrayType, ih]
  rw [hinj]
  cases m with
  | zero => simp [ptrs]
  | succ m => simp [ptrs]

/-- An array whose name is in parentheses is taken for an array of pointers. -/
theorem C131_array_in_parens (n k : Nat) (t : CT) :
    declared true n (.farr (.paren 0 .id) k) t = some (.farr (.ptr (ptrs n t)) k) := by
  have h := starred_arrays n 1 [some k]
  have h2 := newBase_all 1 n [some k] t
  unfold declared
  have hr : readD true (.farr (.paren 0 .id) k) = some (arrayType [some k] (ptrs 1 .unknown)) := rfl
  simp only [hr, h, h2]
  rfl

/-- Brackets after parentheses, if the first one has no size or the declarator has no name: what is in the parentheses
is lost. -/
theorem C131_array_lost (named : Bool) (n m : Nat) (d : Dcl) (a : Option Nat) (l : List (Option Nat)) (t : CT)
    (h : readD named (.paren m d) ≠ none) (ha : named = false ∨ a = none) :
    declared named n (arrays (.paren m d) (a :: l)) t = some (arrayType (a :: l) (ptrs n t)) := by
  cases hr : readD named (.paren m d) with
  | none => exact absurd hr h
  | some c =>
    obtain ⟨e, rfl⟩ := read_paren named m d c hr
    have hr2 := read_arrays named (.exp e) rfl (a :: l) [] _ hr (by
      intro h1 _
      rcases ha with ha | ha
      · rw [h1] at ha; cases ha
      · exact Or.inr (Or.inr (Or.inl (by rw [ha]; rfl))))
    have hs : starred n (arrayType (a :: l) (.exp e)) = some (arrayType (a :: l) (ptrs n (.exp e))) := by
      unfold starred
      split
      · next h => subst h; rfl
      · have hst : strip (arrayType (a :: l) (.exp e)) = .exp e := by rw [strip_arrays]; rfl
        rw [adjust_other _ _ (asFunction_none _ (by rw [hst]; rfl)), hst, newBase_arrays _ _ _ rfl]
        rfl
    unfold declared
    simp only [hr2, List.nil_append, hs]
    rw [newBase_arrays _ _ _ (by rw [baseIsExp_ptrs]; rfl), newBase_exp]
    rfl

/-! ### Functions that return pointers -/

/-- The name, or something in parentheses. -/
def Simple (d : Dcl) : Prop := d = .id ∨ ∃ m e, d = .paren m e

theorem read_simple (named : Bool) (d : Dcl) (c : CT) (hd : Simple d) (h : readD named d = some c) :
    c = .unknown ∨ ∃ e, c = .exp e := by
  rcases hd with rfl | ⟨m, e, rfl⟩
  · left
    simpa [readD] using h.symm
  · exact Or.inr (read_paren named m e c h)

theorem starred_fcn_simple (m : Nat) (c : CT) (q : Nat) (hc : c = .unknown ∨ ∃ e, c = .exp e) :
    starred m (.fcn c q) = some (.fcn (ptrs m c) q) := by
  rcases hc with rfl | ⟨e, rfl⟩
  · unfold starred
    split
    · next h => subst h; rfl
    · simp only [adjust, newBase, strip, Option.map_some]
      rw [makeFunction_other _ _ (asFunction_none _ (by rw [strip_ptrs]; rfl))]
  · exact starred_fcn_exp m e q

/-- The pointers in a function that returns a pointer to a function are lost, and so is what the function is
declared by: the result is a function that returns a function. -/
theorem C131_function_returned (named : Bool) (n m ps q : Nat) (d : Dcl) (b : Nat) (hd : Simple d)
    (h : readD named d ≠ none) :
    declared named n (.fcn (.paren m (.fcn d q)) ps) (.base b) =
      some (.fcn (.fcn (ptrs n (.base b)) ps) q) := by
  cases hr : readD named d with
  | none => exact absurd hr h
  | some c =>
    have hc := read_simple named d c hd hr
    have hm : makeFunction c q = .fcn c q := by
      rcases hc with rfl | ⟨e, rfl⟩ <;> rfl
    have hr2 : readD named (.fcn (.paren m (.fcn d q)) ps) = some (.fcn (.exp (.ptr (.fcn (ptrs m c) q))) ps) := by
      simp only [readD, hr, Option.map_some, hm, starred_fcn_simple m c q hc, expect, isAP, Bool.false_eq_true, if_false,
        makeFunction]
    unfold declared
    simp only [hr2, starred_fcn_exp, newBase_fcn_exp, fpLoop, Option.map_some, resultLoop, makeFunction]
    rw [makeFunction_other (ptrs n (.base b)) ps (asFunction_none _ (by rw [strip_ptrs]; rfl))]

/-- **C131**: no function that returns a pointer to a function is read as in C. -/
theorem C131_function_returned_wrong (named : Bool) (n m ps q : Nat) (d : Dcl) (b : Nat) (hd : Simple d) (hm : 0 < m) :
    declared named n (.fcn (.paren m (.fcn d q)) ps) (.base b) ≠
      some (cDeclared n (.fcn (.paren m (.fcn d q)) ps) (.base b)) := by
  by_cases h : readD named d = none
  · unfold declared
    simp [readD, h]
  · rw [C131_function_returned named n m ps q d b hd h]
    intro he
    rw [Option.some.injEq, cDeclared, cType, cType, cType] at he
    have h1 := size_cType d (.fcn (ptrs m (.fcn (ptrs n (.base b)) ps)) q)
    rw [← he] at h1
    simp only [size, size_ptrs] at h1
    omega

/-- A declaration that C allows for which there is always an internal error: a pointer to a function that returns a
pointer to an array with a size. -/
theorem C131_internal_error (n m k q j : Nat) (d : Dcl) (t : CT) :
    declared true n (.farr (.paren m (.fcn (.paren j d) q)) k) t = none := by
  cases hr : readD true (.paren j d) with
  | none => unfold declared; simp [readD] at hr ⊢; simp [hr]
  | some c =>
    obtain ⟨e, rfl⟩ := read_paren true j d c hr
    have hr2 : readD true (.farr (.paren m (.fcn (.paren j d) q)) k) =
        some (.farr (.ptr (.fcn (ptrs m (.exp e)) q)) k) := by
      rw [readD, readD, readD, hr]
      simp only [Option.map_some, makeFunction, starred_fcn_exp, expect, isAP, Bool.false_eq_true, if_false, if_true,
        notExpecting, innerFixed]
    have hb : baseIsExp (.farr (.ptr (.fcn (ptrs m (.exp e)) q)) k) = true := by
      unfold baseIsExp
      simp only [strip, strip_ptrs]
    have hn : ∀ p, newBase (.farr (.ptr (.fcn (ptrs m (.exp e)) q)) k) p = none := by
      intro p
      simp only [newBase, hb, if_true, newBaseExp, asFunction]
    unfold declared starred
    simp only [hr2]
    by_cases h : n = 0
    · simp only [h, if_true, hn]
    · simp only [h, if_false, adjust, hn]

/-- `F ( *f(p1))(p2)` with `F` a pointer to a function with parameters `q`: the parameters of `F` and those of the
function that `f` returns a pointer to change places, as if it were the latter that returned the former. -/
theorem C131_returned_pointer_is_mixed_up (p1 p2 q : Nat) (b : Nat) :
    declared true 0 (.fcn (.paren 1 (.fcn .id p1)) p2) (.ptr (.fcn (.base b) q)) =
      some (.fcn (.fcn (.fcn (.base b) p2) q) p1) ∧
    cDeclared 0 (.fcn (.paren 1 (.fcn .id p1)) p2) (.ptr (.fcn (.base b) q)) =
      .fcn (.ptr (.fcn (.ptr (.fcn (.base b) q)) p2)) p1 := by
  constructor <;> rfl
/-! ### Parameters -/

/-- A parameter that is declared as a function is a pointer to it, as one that is declared as a pointer is. -/
theorem C131_parameter (n ps : Nat) (t : CT) :
    param n (.fcn .id ps) t = some (.ptr (.fcn (ptrs n t) ps)) ∧
    param n (.fcn (.paren 1 .id) ps) t = some (.ptr (.fcn (ptrs n t) ps)) := by
  have h1 := C131_function true n ps t
  have h2 := C131_function_pointer true n 1 ps [] t (Or.inl (by omega))
  simp only [arrays] at h2
  unfold param
  rw [h1, h2]
  exact ⟨rfl, rfl⟩

/-! ### What should hold -/

/-- Every declaration that C allows is read as in C. -/
def C131_full : Prop := ∀ (named : Bool) (n : Nat) (d : Dcl) (t : CT), Plain t → Legal (cDeclared n d t) →
  declared named n d t = some (cDeclared n d t)

/-- `int ( *p );` declares an int. -/
theorem C131_full_is_false : ¬ C131_full := by
  intro h
  have := h true 0 (.paren 1 .id) (.base 0) ⟨0, rfl⟩ trivial
  exact absurd this (by decide)

/-- **C131**: declarations without parentheses are read as in C. -/
theorem C131_partial (named : Bool) (n : Nat) (d : Dcl) (t : CT)
    (hd : (∃ l, d = arrays .id l) ∨ ∃ ps, d = .fcn .id ps) : declared named n d t = some (cDeclared n d t) := by
  rcases hd with ⟨l, rfl⟩ | ⟨ps, rfl⟩
  · exact C131_arrays named n l t
  · exact C131_function named n ps t

/-! ### Examples -/

/-- `int *a[5][7]` -/
example : declared true 1 (.farr (.farr .id 5) 7) (.base 0) = some (.farr (.farr (.ptr (.base 0)) 7) 5) := by decide

/-- `int *( *f )(void)` -/
example : declared true 1 (.fcn (.paren 1 .id) 3) (.base 0) = some (.ptr (.fcn (.ptr (.base 0)) 3)) := by decide

/-- `int ( *a[4])(void)`: the size is lost -/
example : declared true 0 (.fcn (.paren 1 (.farr .id 4)) 3) (.base 0) = some (.arr (.ptr (.fcn (.base 0) 3))) ∧
    Legal (cDeclared 0 (.fcn (.paren 1 (.farr .id 4)) 3) (.base 0)) := ⟨by decide, rfl, rfl, rfl, trivial⟩

/-- `int ( *p)[5]` is taken for `int *p[5]`, `int ( *p)[]` for `int p[]` -/
example : declared true 0 (.farr (.paren 1 .id) 5) (.base 0) = some (.farr (.ptr (.base 0)) 5) ∧
    declared true 0 (.arr (.paren 1 .id)) (.base 0) = some (.arr (.base 0)) ∧
    cDeclared 0 (.farr (.paren 1 .id) 5) (.base 0) = .ptr (.farr (.base 0) 5) := by decide

/-- `int ( *signal(int))(int)` -/
example : declared true 0 (.fcn (.paren 1 (.fcn .id 1)) 2) (.base 0) = some (.fcn (.fcn (.base 0) 2) 1) ∧
    Legal (cDeclared 0 (.fcn (.paren 1 (.fcn .id 1)) 2) (.base 0)) := ⟨by decide, rfl, rfl, rfl, rfl, trivial⟩

/-- `int ( *( *f)(int))[7]` is legal -/
example : Legal (cDeclared 0 (.farr (.paren 1 (.fcn (.paren 1 .id) 3)) 7) (.base 0)) := ⟨rfl, rfl, rfl, trivial⟩

end Declarator
end Splint
