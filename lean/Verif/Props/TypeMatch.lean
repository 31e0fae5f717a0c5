import Verif.Proofs.TypeMatch
/-!
# C66, C67: which types match

C66: outside its module, the representation of an abstract type does not matter. C67: without flags, types
match if and only if they are the same.
-/
namespace Splint.TypeMatch
open Prim (P)
open Spec

/-! ## Examples of types -/

/-- `int *`, `int []`, `T`, `T *`, an abstract type, a pointer to it, a function, pointers to it, ... -/
def demoNodes : List Node :=
  [.unknown, .prim .void, .bool, .prim .uchar, .prim .char, .prim .int, .ptr (.ix 5), .arr (.ix 5), .ua .user 0,
    .ptr (.ix 8), .ua .abst 1, .ptr (.ix 10), .fcn (.ix 5) [.ix 8, .elips], .ptr (.ix 12), .arr (.ix 13),
    .ua .user 3, .ptr (.ix 15), .ptr (.ix 1), .ua .abst 2, .arr (.ix 10), .prim .lint, .ptr (.ix 20), .farr (.ix 5),
    .su false (.fake 0) 0, .su false (.fake 1) 1, .ua .user 4, .ptr (.ix 25), .ptr (.ix 26), .su false (.named 7) 2,
    .fcn (.ix 5) [.ix 5, .elips]]

/-- `T` is `int`, 1 is abstract -/
def demo (f : Flags) : Env :=
  { node := fun n => demoNodes[n]?
    entry := fun t => [{ self := .ix 8, utype := .ix 5 }, { abst := true, self := .ix 10, utype := .ix 27 }][t]?
    access := fun _ => false, accessBool := false
    fields := fun n => if n = 0 then [] else [(n, .ix 5)]
    fl := f }

/-- 2 is abstract, 3 is a name for `void`, 4 is a tag -/
def demo2 (f : Flags) : Env :=
  { demo f with
    entry := fun t => [{ self := .ix 8, utype := .ix 5 }, { abst := true, self := .ix 10, utype := .ix 27 },
      { abst := true, self := .ix 18, utype := .ix 5 }, { self := .ix 15, utype := .ix 1 },
      { tag := true, self := .ix 25, utype := .ix 28 }][t]? }

theorem demo_standard (f : Flags) : Standard (demo f) := ⟨rfl, rfl, rfl, rfl⟩
theorem demo2_standard (f : Flags) : Standard (demo2 f) := ⟨rfl, rfl, rfl, rfl⟩

theorem demo_hidden (f : Flags) (t : Nat) (e : Entry) (he : (demo f).entry t = some e) (hh : hidden (demo f) t e) :
    t = 1 := by
  rcases t with _ | _ | t
  · obtain rfl : _ = _ := by simpa [demo] using he
    simp [Spec.hidden] at hh
  · rfl
  · simp [demo] at he

theorem demo_unmixed (f : Flags) : unmixed (demo f) := by
  intro t e he hh
  obtain rfl := demo_hidden f t e he hh
  exact ⟨by decide, .prim .void, rfl, fun u eu hu => by cases hu⟩

/-! ## C66 -/

/-- Outside its module, the representation of an abstract type does not matter for matching, whatever the
other types, if forward declarations are not allowed for. -/
theorem C66_representation {E E' : Env} (h : SameOutside E E') (hf : E.fl.forwardDecl = false) (n : Nat)
    (d deep : Bool) (x y : Ct) :
    genMatch E' n d deep x y = genMatch E n d deep x y ∧ ctMatch E' n x y = ctMatch E n x y
      ∧ ctMatchArg E' n x y = ctMatchArg E n x y := by
  obtain ⟨e, ho⟩ := outside_other h
  rw [e]
  have hr : run (other E E'.entry) n = run E n := run_other ho hf n
  refine ⟨?_, ?_, ?_⟩
  · simp only [genMatch, hr, genCt_other]
  · simp only [ctMatch, hr, viaBase, get_other]
  · simp only [ctMatchArg, hr, viaBase, get_other]

/-- The same in definitions. -/
theorem C66_representation_def {E E' : Env} (h : SameOutside E E') (hf : E.fl.forwardDecl = false) (n : Nat)
    (x y : Ct) : ctMatchDef E' n x y = ctMatchDef E n x y := by
  simp only [ctMatchDef]
  have h' : SameOutside { E with fl := { E.fl with prim := { E.fl.prim with relaxQuals := false } } }
      { E' with fl := { E'.fl with prim := { E'.fl.prim with relaxQuals := false } } } := by
    obtain ⟨h1, h2, h3, h4, h5, h6⟩ := h
    exact ⟨h1, h2, h3, h4, by simp [h5], h6⟩
  obtain ⟨e, ho⟩ := outside_other h'
  rw [e]
  have hr := run_other ho (by simpa using hf) n
  simp only [hr, viaBase, get_other]

/-- the abstract type, represented by `void *` rather than a pointer to a structure -/
def demo' (f : Flags) : Env :=
  { demo2 f with entry := fun t => if t = 1 then some { abst := true, self := .ix 10, utype := .ix 17 }
                                   else (demo2 f).entry t }

theorem demo_outside (f : Flags) : SameOutside (demo2 f) (demo' f) := by
  refine ⟨rfl, rfl, rfl, rfl, rfl, fun t => ?_⟩
  by_cases h : t = 1
  · subst h
    exact .inr ⟨_, .ix 17, rfl, rfl, rfl, rfl, rfl, ⟨10, .abst, rfl, rfl⟩, rfl⟩
  · left
    simp [demo', h]

example : SameOutside (demo2 {}) (demo' {}) ∧ (demo2 {}).entry 1 ≠ (demo' {}).entry 1
    ∧ ctMatch (demo2 {}) 9 (.ix 10) (.ix 26) = some false := ⟨demo_outside {}, by decide, by decide +kernel⟩

/-- Forward declarations look at the representation, as they should. -/
theorem C66_forward :
    ctMatch (demo2 { forwardDecl := true }) 9 (.ix 10) (.ix 26) = some true
    ∧ ctMatch (demo' { forwardDecl := true }) 9 (.ix 10) (.ix 26) = some false := by
  decide +kernel

/-- But not as they should: the abstract type is `struct s **` and matches `struct s *`. -/
theorem C66_forward_wrong : (demo2 {}).entry 1 = some { abst := true, self := .ix 10, utype := .ix 27 }
    ∧ Has (demo2 {}) (.ty (.ix 27)) (.ptr (.ptr (.su false (.named 7))))
    ∧ Has (demo2 {}) (.ty (.ix 26)) (.ptr (.su false (.named 7)))
    ∧ ctMatch (demo2 { forwardDecl := true }) 9 (.ix 10) (.ix 26) = some true := by
  have h25 : Has (demo2 {}) (.ty (.ix 25)) (.su false (.named 7)) := by
    refine .known (k := .user) (t := 4) (e := { tag := true, self := .ix 25, utype := .ix 28 }) rfl rfl
      ⟨rfl, ?_⟩ (.su (f := 2) rfl) (by decide)
    rw [if_pos rfl]
    exact ⟨28, _, rfl, rfl, rfl, by simp⟩
  have h26 : Has (demo2 {}) (.ty (.ix 26)) (.ptr (.su false (.named 7))) := .ptr (x := .ix 25) rfl h25
  exact ⟨rfl, .ptr (x := .ix 26) rfl h26, h26, by decide +kernel⟩

/-- An abstract type matches only itself, whatever other flags are on: apart from unknown types and
alternatives. Missing: booleans. -/
theorem C66_opaque_partial {E : Env} {n i : Nat} {d deep : Bool} {k : UA} {t : Nat} {e : Entry} {y : Ct} {b c : Node}
    (hf : E.fl.forwardDecl = false) (hi : E.node i = some (.ua k t)) (he : E.entry t = some e)
    (hh : hidden E t e) (hy : get E y = some b) (hr : realNode E n b = some c)
    (h1 : c ≠ .unknown) (h2 : ∀ x z, c ≠ .conj x z) (h3 : c ≠ .bool)
    (hm : genMatch E (n + 1) d deep (.ix i) y = some true) : y = .ix i ∨ ∃ k', c = .ua k' t := by
  by_cases hxy : Ct.ix i = y
  · exact .inl hxy.symm
  right
  obtain ⟨g1, g2, g3, ⟨j, k', g4, g5⟩, g6⟩ := hh
  have hel : y ≠ .elips := by rintro rfl; simp [get] at hy
  simp only [genMatch, genCt, hxy, hel, if_false, reduceCtorEq, or_self, viaBase, hy] at hm
  simp only [get, hi, Option.bind_some, run, reduceCtorEq, false_or] at hm
  by_cases hu : b = .undefined
  · simp [hu] at hm
  rw [if_neg hu] at hm
  have hreal : ∀ n', realNode E n' (.ua k t) = some (.ua k' t) ∨ realNode E n' (.ua k t) = none := by
    intro n'
    cases n' with
    | zero => right; simp [realNode, isBoolType, he, g1, getRealType]
    | succ n' =>
      left
      simp [realNode, isBoolType, he, g1, getRealType, g2, g3, g4, get, g5, Node.tid, g6]
  rcases hreal n with hr' | hr'
  · simp only [hr', hr, Option.bind_some] at hm
    cases c <;> simp [genReal, forwardCase, hf] at hm <;> simp_all
  · simp [hr'] at hm

example : hidden (demo {}) 1 { abst := true, self := .ix 10, utype := .ix 27 }
    ∧ ctMatch (demo {}) 9 (.ix 10) (.ix 5) = some false ∧ ctMatch (demo {}) 9 (.ix 11) (.ix 6) = some false
    ∧ genMatch (demo {}) 9 false false (.ix 10) (.ix 10) = some true :=
  ⟨⟨rfl, rfl, rfl, ⟨10, .abst, rfl, rfl⟩, rfl⟩, by decide +kernel, by decide +kernel, by decide +kernel⟩

/-- Booleans: the abstract type whose number in the symbol table is 2 matches `bool`, because that number is
taken for a type. -/
theorem C66_bool_wrong : hidden (demo2 {}) 2 { abst := true, self := .ix 18, utype := .ix 5 }
    ∧ ctMatch (demo2 {}) 9 .bool (.ix 18) = some true ∧ ctMatch (demo2 {}) 9 .bool (.ix 10) = some false :=
  ⟨⟨rfl, rfl, rfl, ⟨18, .abst, rfl, rfl⟩, rfl⟩, by decide +kernel, by decide +kernel⟩

/-- Pointers to it do not match `void *` without `abstvoidp`, but an array of it takes a `void *`. -/
theorem C66_void_array :
    ctMatch (demo {}) 9 (.ix 17) (.ix 11) = some false ∧ ctMatch (demo {}) 9 (.ix 11) (.ix 17) = some false
    ∧ ctMatch (demo {}) 9 (.ix 17) (.ix 19) = some false ∧ ctMatch (demo {}) 9 (.ix 19) (.ix 17) = some true := by
  decide +kernel

/-! ## C67 -/

/-- trees without anything unknown and pointers to `void` -/
def tidy : Shape → Prop
  | .ptr s => s ≠ .prim .void ∧ tidy s
  | .arr s => s ≠ .prim .void ∧ tidy s
  | .fcn r ps => tidy r ∧ tidyList ps
  | .su _ g => ∃ n, g = .named n
  | .elips => False
  | .nil => False
  | .cons _ _ => False
  | _ => True
where
  tidyList : Shape → Prop
  | .cons s ps => (s = .elips ∨ tidy s) ∧ (ps = .nil ∨ tidyList ps)
  | _ => False

/-- The full property: without flags, types match exactly if they are the same. -/
def C67_full : Prop :=
  ∀ (E : Env) (c1 c2 : Ct) (s1 s2 : Shape), Standard E → strict E.fl → Has E (.ty c1) s1 → Has E (.ty c2) s2 →
    tidy s1 → tidy s2 →
    ∃ N, ∀ n, N ≤ n → ctMatch E n c1 c2 = some (decide (norm false s1 = norm false s2))

theorem ans_decide {f : Nat → Option Bool} {p : Prop} [Decidable p] (h : Ans f p) :
    ∃ N, ∀ n, N ≤ n → f n = some (decide p) := by
  obtain ⟨b, N, h1, h2⟩ := h
  refine ⟨N, fun n hn => ?_⟩
  rw [h1 n hn]
  by_cases hp : p
  · simp [hp, h2.2 hp]
  · cases b
    · simp [hp]
    · exact absurd (h2.1 rfl) hp

theorem viaBase_ans {E : Env} {c1 c2 : Ct} {s1 s2 : Shape} (hE : Standard E) (hf : strict E.fl) (hm : unmixed E)
    (h1 : Has E (.ty c1) s1) (h2 : Has E (.ty c2) s2) (p1 : proper s1) (p2 : proper s2) (d deep : Bool) :
    ∃ N, ∀ n, N ≤ n → viaBase E (run E n) (.gen d deep) c1 c2 = some (decide (norm d s1 = norm d s2)) :=
  ans_decide (good_all hE hf hm _ s1 (Nat.lt_succ_self _) c1 c2 s2 d deep h1 h2 p1 p2)

/-- Without flags, types match if and only if they are the same, once names are replaced, arrays taken for
pointers, and functions for pointers to them. The comparison ends, for all types. Missing: arrays of functions,
and types whose number is mixed up with that of a boolean. -/
theorem C67_match_partial {E : Env} {c1 c2 : Ct} {s1 s2 : Shape} (hE : Standard E) (hf : strict E.fl)
    (hm : unmixed E) (h1 : Has E (.ty c1) s1) (h2 : Has E (.ty c2) s2) (p1 : proper s1) (p2 : proper s2) :
    ∃ N, ∀ n, N ≤ n → ctMatch E n c1 c2 = some (decide (norm false s1 = norm false s2)) := by
  obtain ⟨N, h⟩ := viaBase_ans hE hf hm h1 h2 p1 p2 false false
  refine ⟨N, fun n hn => ?_⟩
  obtain ⟨n1, rfl⟩ := has_ix h1 (proper_ne p1)
  obtain ⟨n2, rfl⟩ := has_ix h2 (proper_ne p2)
  simp only [ctMatch, reduceCtorEq, if_false, h n hn]
  by_cases e : Ct.ix n1 = Ct.ix n2
  · rw [if_pos e]
    cases e
    simp [has_unique h1 h2]
  · rw [if_neg e]

/-- The same for arguments of functions. -/
theorem C67_arg_partial {E : Env} {c1 c2 : Ct} {s1 s2 : Shape} (hE : Standard E) (hf : strict E.fl)
    (hm : unmixed E) (h1 : Has E (.ty c1) s1) (h2 : Has E (.ty c2) s2) (p1 : proper s1) (p2 : proper s2) :
    ∃ N, ∀ n, N ≤ n → ctMatchArg E n c1 c2 = some (decide (norm false s1 = norm false s2)) := by
  obtain ⟨N, h⟩ := viaBase_ans hE hf hm h1 h2 p1 p2 false false
  refine ⟨N, fun n hn => ?_⟩
  simp only [ctMatchArg, h n hn]
  by_cases e : c1 = c2
  · rw [if_pos e]
    subst e
    simp [has_unique h1 h2]
  · rw [if_neg e]

/-- In definitions, arrays are not pointers. -/
theorem C67_def_partial {E : Env} {c1 c2 : Ct} {s1 s2 : Shape} (hE : Standard E) (hf : strict E.fl)
    (hm : unmixed E) (h1 : Has E (.ty c1) s1) (h2 : Has E (.ty c2) s2) (p1 : proper s1) (p2 : proper s2) :
    ∃ N, ∀ n, N ≤ n → ctMatchDef E n c1 c2 = some (decide (norm true s1 = norm true s2)) := by
  obtain ⟨N, h⟩ := viaBase_ans hE hf hm h1 h2 p1 p2 true false
  refine ⟨N, fun n hn => ?_⟩
  have hE' : { E with fl := { E.fl with prim := { E.fl.prim with relaxQuals := false } } } = E := by
    have hp := hf.1
    obtain ⟨_, _, _, _, _, fl⟩ := E
    obtain ⟨prim, _, _, _, _, _⟩ := fl
    simp only at hp
    subst hp
    rfl
  obtain ⟨n1, rfl⟩ := has_ix h1 (proper_ne p1)
  obtain ⟨n2, rfl⟩ := has_ix h2 (proper_ne p2)
  simp only [ctMatchDef, reduceCtorEq, if_false, hE', h n hn]
  by_cases e : Ct.ix n1 = Ct.ix n2
  · rw [if_pos e]
    cases e
    simp [has_unique h1 h2]
  · rw [if_neg e]

theorem demo_T (f : Flags) : Has (demo f) (.ty (.ix 8)) (.prim .int) := by
  refine .known (k := .user) (t := 0) (e := { self := .ix 8, utype := .ix 5 }) rfl rfl ⟨rfl, ?_⟩ (.prim rfl) (by decide)
  simp

/-- `T *`, and `int []`; a function with a parameter of type `T` and further arguments, and a pointer to
such a function with an `int` -/
example : Standard (demo {}) ∧ strict (demo {}).fl ∧ unmixed (demo {})
    ∧ Has (demo {}) (.ty (.ix 9)) (.ptr (.prim .int)) ∧ Has (demo {}) (.ty (.ix 7)) (.arr (.prim .int))
    ∧ proper (.ptr (.prim .int)) ∧ proper (.arr (.prim .int))
    ∧ norm false (.ptr (.prim .int)) = norm false (.arr (.prim .int))
    ∧ norm true (.ptr (.prim .int)) ≠ norm true (.arr (.prim .int)) :=
  ⟨demo_standard _, ⟨rfl, rfl, rfl, rfl⟩, demo_unmixed _, .ptr (x := .ix 8) rfl (demo_T _), .arr (x := .ix 5) rfl (.prim rfl),
    by simp [proper], by simp [proper, callable], by decide, by decide⟩

example : Has (demo {}) (.ty (.ix 13)) (.ptr (.fcn (.prim .int) (.cons (.prim .int) (.cons .elips .nil))))
    ∧ Has (demo {}) (.ty (.ix 29)) (.fcn (.prim .int) (.cons (.prim .int) (.cons .elips .nil)))
    ∧ proper (.ptr (.fcn (.prim .int) (.cons (.prim .int) (.cons .elips .nil))))
    ∧ ctMatch (demo {}) 9 (.ix 13) (.ix 29) = some true :=
  ⟨.ptr (x := .ix 12) rfl (.fcn (r := .ix 5) (l := [.ix 8, .elips]) rfl (.prim rfl) (.cons (demo_T _) (.cons .elips .nil))),
    .fcn (r := .ix 5) (l := [.ix 5, .elips]) rfl (.prim rfl) (.cons (.prim rfl) (.cons .elips .nil)),
    by simp [proper, proper.properList], by decide +kernel⟩

/-- An array of pointers to functions takes a pointer to a function. -/
theorem C67_full_is_false : ¬ C67_full := by
  intro h
  have h12 : Has (demo {}) (.ty (.ix 12)) (.fcn (.prim .int) (.cons (.prim .int) (.cons .elips .nil))) :=
    .fcn (r := .ix 5) (l := [.ix 8, .elips]) rfl (.prim rfl) (.cons (demo_T _) (.cons .elips .nil))
  have h13 := Has.ptr (E := demo {}) (n := 13) (x := .ix 12) rfl h12
  have h14 := Has.arr (E := demo {}) (n := 14) (x := .ix 13) rfl h13
  obtain ⟨N, hN⟩ := h (demo {}) (.ix 14) (.ix 13) _ _ (demo_standard _) ⟨rfl, rfl, rfl, rfl⟩ h14 h13
    (by simp [tidy, tidy.tidyList]) (by simp [tidy, tidy.tidyList])
  have h1 := hN (N + 9) (by omega)
  have h2 : ∀ n, ctMatch (demo {}) (n + 9) (.ix 14) (.ix 13) = some true := by
    intro n
    rfl
  rw [h2] at h1
  revert h1
  decide

/-- A name for `void` is not `void`: its pointers match no others. -/
theorem C67_void_name : Has (demo2 {}) (.ty (.ix 16)) (.ptr (.prim .void))
    ∧ Has (demo2 {}) (.ty (.ix 17)) (.ptr (.prim .void))
    ∧ ctMatch (demo2 {}) 9 (.ix 17) (.ix 6) = some true ∧ ctMatch (demo2 {}) 9 (.ix 16) (.ix 6) = some false := by
  refine ⟨.ptr (x := .ix 15) rfl ?_, .ptr (x := .ix 1) rfl (.prim rfl), by decide +kernel, by decide +kernel⟩
  refine .known (k := .user) (t := 3) (e := { self := .ix 15, utype := .ix 1 }) rfl rfl ⟨rfl, ?_⟩ (.prim rfl) (by decide)
  simp

/-- With `relaxquals`, a pointer to `long` does not take a pointer to `int`, but a fixed array of `int`. -/
theorem C67_fixed_array : ctMatch (demo { prim := { relaxQuals := true } }) 9 (.ix 21) (.ix 6) = some false
    ∧ ctMatch (demo { prim := { relaxQuals := true } }) 9 (.ix 21) (.ix 22) = some true := by
  decide +kernel

/-- A structure without name and fields matches any other without a name. -/
theorem C67_no_fields : ctMatch (demo {}) 9 (.ix 23) (.ix 24) = some true := by decide +kernel

/-- The rest of the arguments of a function, compared with a type: a fatal error. -/
theorem C67_elips (E : Env) (n i : Nat) : ctMatchArg E n .elips (.ix i) = none := by
  simp [ctMatchArg, viaBase, get]

end Splint.TypeMatch
