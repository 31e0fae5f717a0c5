import Verif.Spec.Access
/-!
C99: the requirements generated for an expression are those of the accesses it makes.
-/
namespace Splint.Access
open Spec

/-- Every access is required to be within bounds. -/
def C99_full : Prop := ∀ e, ∀ r ∈ needs .value e, r ∈ reqs false e

mutual
theorem seen_aux (m : Mode) (lv : Bool) : ∀ e, Seen m lv e → ∀ r ∈ needs m e, r ∈ reqs lv e
  | .leaf _, _, r, hr => by simp [needs] at hr
  | .fetch a i, h, r, hr => by
    simp only [Seen, along, Bool.and_eq_true] at h
    simp only [needs, List.mem_append] at hr
    simp only [reqs, List.mem_cons, List.mem_append]
    rcases hr with hr | hr | hr
    · left
      revert hr
      cases m <;> cases lv <;> simp_all [access, demand]
    · exact Or.inr (Or.inl (seen_aux .value false a h.2.1 r hr))
    · exact Or.inr (Or.inr (seen_aux .value false i h.2.2 r hr))
  | .parens e, h, r, hr => seen_aux m lv e h r hr
  | .cast e, h, r, hr => seen_aux m lv e h r hr
  | .init e, h, r, hr => seen_aux .value lv e h r hr
  | .assign a b, h, r, hr => by
    simp only [Seen, along, Bool.and_eq_true] at h
    simp only [needs, List.mem_append] at hr
    simp only [reqs, List.mem_append]
    rcases hr with hr | hr
    · exact Or.inl (seen_aux .write true a h.1 r hr)
    · exact Or.inr (seen_aux .value lv b h.2 r hr)
  | .op .plain a b, h, r, hr => by
    simp only [Seen, along, Bool.and_eq_true] at h
    simp only [needs, List.mem_append] at hr
    simp only [reqs, List.mem_append]
    rcases hr with hr | hr
    · exact Or.inl (seen_aux .value lv a h.1 r hr)
    · exact Or.inr (seen_aux .value lv b h.2 r hr)
  | .op .addAssign a b, h, r, hr => by
    simp only [Seen, along, Bool.and_eq_true] at h
    simp only [needs, List.mem_append] at hr
    simp only [reqs, List.mem_append]
    rcases hr with hr | hr
    · exact Or.inl (seen_aux .update true a h.1 r hr)
    · exact Or.inr (seen_aux .value lv b h.2 r hr)
  | .op .otherAssign a b, h, r, hr => by
    simp only [Seen, along, Bool.and_eq_true] at h
    simp only [needs, List.mem_append] at hr
    simp only [reqs, List.mem_append]
    rcases hr with hr | hr
    · exact Or.inl (seen_aux .update lv a h.1 r hr)
    · exact Or.inr (seen_aux .value lv b h.2 r hr)
  | .sizeOf _, _, r, hr => by simp [needs] at hr
  | .call f as, h, r, hr => by
    simp only [Seen, along, Bool.and_eq_true] at h
    simp only [needs, List.mem_cons, List.mem_append] at hr
    simp only [reqs, List.mem_cons, List.mem_append]
    rcases hr with hr | hr | hr
    · exact Or.inl hr
    · exact Or.inr (Or.inl (seen_aux .value lv f h.1 r hr))
    · exact Or.inr (Or.inr (seenArgs_aux as h.2 r hr))
  | .ret e, h, r, hr => seen_aux .value lv e h r hr
  | .dot e, h, r, hr => seen_aux m lv e h r hr
  | .arrow e, h, r, hr => by
    simp only [Seen, along, Bool.and_eq_true] at h
    simp only [needs, List.mem_append] at hr
    simp only [reqs]
    rcases hr with hr | hr
    · cases m <;> simp_all [access]
    · exact seen_aux .value lv e h.2 r hr
  | .pre .deref e, h, r, hr => by
    simp only [Seen, along, Bool.and_eq_true] at h
    simp only [needs, List.mem_append] at hr
    simp only [reqs, List.mem_cons]
    rcases hr with hr | hr
    · left
      revert hr
      cases m <;> cases lv <;> simp_all [access, demand]
    · exact Or.inr (seen_aux .value lv e h.2 r hr)
  | .pre .incDec e, h, r, hr => by
    simp only [reqs]
    exact seen_aux .update lv e (by simpa only [Seen, along] using h) r (by simpa only [needs] using hr)
  | .pre .addr e, h, r, hr => by
    simp only [reqs]
    exact seen_aux .address lv e (by simpa only [Seen, along] using h) r (by simpa only [needs] using hr)
  | .pre .other e, h, r, hr => by
    simp only [reqs]
    exact seen_aux .value lv e (by simpa only [Seen, along] using h) r (by simpa only [needs] using hr)
  | .post e, h, r, hr => seen_aux .update true e h r hr
  | .cond p t f, h, r, hr => by
    simp only [Seen, along, List.isEmpty_iff] at h
    simp [h] at hr
  | .comma a b, h, r, hr => by
    simp only [Seen, along, List.isEmpty_iff] at h
    simp [h] at hr
  | .block es, h, r, hr => by
    simp only [Seen, along, List.isEmpty_iff] at h
    simp [h] at hr
  | .vaArg e, h, r, hr => by
    simp only [Seen, along, List.isEmpty_iff] at h
    simp [h] at hr
theorem seenArgs_aux : ∀ es, alongArgs (fun m lv => m == .address || (m == .value && !lv)
      || (m == .write && lv)) (fun m => m == .address) (fun m e => (needs m e).isEmpty) es = true →
    ∀ r ∈ needsArgs es, r ∈ reqsArgs es
  | .nil, _, r, hr => by simp [needsArgs] at hr
  | .cons e es, h, r, hr => by
    simp only [alongArgs, Bool.and_eq_true] at h
    simp only [needsArgs, List.mem_append] at hr
    simp only [reqsArgs, List.mem_append]
    rcases hr with hr | hr
    · exact Or.inl (seen_aux .value false e h.1 r hr)
    · exact Or.inr (seenArgs_aux es h.2 r hr)
end

mutual
theorem honest_aux (m : Mode) (lv : Bool) : ∀ e, Honest m lv e → ∀ r ∈ reqs lv e, r ∈ needs m e
  | .leaf _, _, r, hr => by simp [reqs] at hr
  | .fetch a i, h, r, hr => by
    simp only [Honest, along, Bool.and_eq_true] at h
    simp only [reqs, List.mem_cons, List.mem_append] at hr
    simp only [needs, List.mem_append]
    rcases hr with hr | hr | hr
    · left
      subst hr
      cases m <;> cases lv <;> simp_all [access, demand]
    · exact Or.inr (Or.inl (honest_aux .value false a h.2.1 r hr))
    · exact Or.inr (Or.inr (honest_aux .value false i h.2.2 r hr))
  | .parens e, h, r, hr => honest_aux m lv e h r hr
  | .cast e, h, r, hr => honest_aux m lv e h r hr
  | .init e, h, r, hr => honest_aux .value lv e h r hr
  | .assign a b, h, r, hr => by
    simp only [Honest, along, Bool.and_eq_true] at h
    simp only [reqs, List.mem_append] at hr
    simp only [needs, List.mem_append]
    rcases hr with hr | hr
    · exact Or.inl (honest_aux .write true a h.1 r hr)
    · exact Or.inr (honest_aux .value lv b h.2 r hr)
  | .op .plain a b, h, r, hr => by
    simp only [Honest, along, Bool.and_eq_true] at h
    simp only [reqs, List.mem_append] at hr
    simp only [needs, List.mem_append]
    rcases hr with hr | hr
    · exact Or.inl (honest_aux .value lv a h.1 r hr)
    · exact Or.inr (honest_aux .value lv b h.2 r hr)
  | .op .addAssign a b, h, r, hr => by
    simp only [Honest, along, Bool.and_eq_true] at h
    simp only [reqs, List.mem_append] at hr
    simp only [needs, List.mem_append]
    rcases hr with hr | hr
    · exact Or.inl (honest_aux .update true a h.1 r hr)
    · exact Or.inr (honest_aux .value lv b h.2 r hr)
  | .op .otherAssign a b, h, r, hr => by
    simp only [Honest, along, Bool.and_eq_true] at h
    simp only [reqs, List.mem_append] at hr
    simp only [needs, List.mem_append]
    rcases hr with hr | hr
    · exact Or.inl (honest_aux .update lv a h.1 r hr)
    · exact Or.inr (honest_aux .value lv b h.2 r hr)
  | .sizeOf _, _, r, hr => by simp [reqs] at hr
  | .call f as, h, r, hr => by
    simp only [Honest, along, Bool.and_eq_true] at h
    simp only [reqs, List.mem_cons, List.mem_append] at hr
    simp only [needs, List.mem_cons, List.mem_append]
    rcases hr with hr | hr | hr
    · exact Or.inl hr
    · exact Or.inr (Or.inl (honest_aux .value lv f h.1 r hr))
    · exact Or.inr (Or.inr (honestArgs_aux as h.2 r hr))
  | .ret e, h, r, hr => honest_aux .value lv e h r hr
  | .dot e, h, r, hr => honest_aux m lv e h r hr
  | .arrow e, h, r, hr => by
    simp only [Honest, along, Bool.and_eq_true] at h
    simp only [needs, List.mem_append]
    exact Or.inr (honest_aux .value lv e h.2 r hr)
  | .pre .deref e, h, r, hr => by
    simp only [Honest, along, Bool.and_eq_true] at h
    simp only [reqs, List.mem_cons] at hr
    simp only [needs, List.mem_append]
    rcases hr with hr | hr
    · left
      subst hr
      cases m <;> cases lv <;> simp_all [access, demand]
    · exact Or.inr (honest_aux .value lv e h.2 r hr)
  | .pre .incDec e, h, r, hr => by
    simp only [needs]
    exact honest_aux .update lv e (by simpa only [Honest, along] using h) r
      (by simpa only [reqs] using hr)
  | .pre .addr e, h, r, hr => by
    simp only [needs]
    exact honest_aux .address lv e (by simpa only [Honest, along] using h) r
      (by simpa only [reqs] using hr)
  | .pre .other e, h, r, hr => by
    simp only [needs]
    exact honest_aux .value lv e (by simpa only [Honest, along] using h) r
      (by simpa only [reqs] using hr)
  | .post e, h, r, hr => honest_aux .update true e h r hr
  | .cond p t f, _, r, hr => by simp [reqs] at hr
  | .comma a b, _, r, hr => by simp [reqs] at hr
  | .block es, _, r, hr => by simp [reqs] at hr
  | .vaArg e, _, r, hr => by simp [reqs] at hr
theorem honestArgs_aux : ∀ es, alongArgs (fun m lv => m == .update || (m == .value && !lv)
      || (m == .write && lv)) (fun _ => true) (fun _ _ => true) es = true →
    ∀ r ∈ reqsArgs es, r ∈ needsArgs es
  | .nil, _, r, hr => by simp [reqsArgs] at hr
  | .cons e es, h, r, hr => by
    simp only [alongArgs, Bool.and_eq_true] at h
    simp only [reqsArgs, List.mem_append] at hr
    simp only [needsArgs, List.mem_append]
    rcases hr with hr | hr
    · exact Or.inl (honest_aux .value false e h.1 r hr)
    · exact Or.inr (honestArgs_aux es h.2 r hr)
end

/-- Expressions in which nothing but single names is updated, `->` is not used for an access, no access
is made in a conditional expression, a comma expression, the list of an initialisation or `va_arg`, and
below an assigned `*` no value is taken outside brackets and arguments: every access they make is
required to be within bounds.  Missing for `C99_full`: the others. -/
theorem C99_complete_partial (e : Exp) (h : Seen .value false e) : ∀ r ∈ needs .value e, r ∈ reqs false e :=
  seen_aux .value false e h

/-- And only those are, also if there are updates, `->` and so on, but `&` is not applied to an
access. -/
theorem C99_sound_partial (e : Exp) (h : Honest .value false e) :
    ∀ r ∈ reqs false e, r ∈ needs .value e :=
  honest_aux .value false e h

/-- `a[f(b[j])] = *p++` and `x += sizeof (*q)` meet both conditions. -/
example :
    let e := Exp.assign (.fetch (.leaf 0) (.call (.leaf 1) (.cons (.fetch (.leaf 2) (.leaf 3)) .nil)))
      (.pre .deref (.post (.leaf 4)))
    Seen .value false e ∧ Honest .value false e ∧ (needs .value e).length = 4
    ∧ reqs false e = [.write (.leaf 0) (some (.call (.leaf 1) (.cons (.fetch (.leaf 2) (.leaf 3)) .nil))),
        .pre (.leaf 1) (.cons (.fetch (.leaf 2) (.leaf 3)) .nil), .read (.leaf 2) (some (.leaf 3)),
        .read (.post (.leaf 4)) none] := by
  refine ⟨?_, ?_, ?_, ?_⟩ <;> rfl

/-- A conditional expression, a comma expression, the list of an initialisation and `va_arg` have no
requirements, whatever their parts are. -/
theorem C99_unhandled (lv : Bool) (p a b : Exp) (es : Args) :
    reqs lv (.cond p a b) = [] ∧ reqs lv (.comma a b) = [] ∧ reqs lv (.block es) = []
    ∧ reqs lv (.vaArg a) = [] := by
  refine ⟨?_, ?_, ?_, ?_⟩ <;> rfl

/-- `p->x` has the requirements of `p` and no other. -/
theorem C99_arrow (lv : Bool) (p : Exp) : reqs lv (.arrow p) = reqs lv p := rfl

/-- An element that is updated is required to be readable or to be writable, not both: readable by
`++a[i]` and `a[i] *= e`, writable by `a[i]++` and `a[i] += e`. -/
theorem C99_update (a i : Nat) (e : Exp) :
    reqs false (.pre .incDec (.fetch (.leaf a) (.leaf i))) = [.read (.leaf a) (some (.leaf i))]
    ∧ reqs false (.op .otherAssign (.fetch (.leaf a) (.leaf i)) e)
      = .read (.leaf a) (some (.leaf i)) :: reqs false e
    ∧ reqs false (.post (.fetch (.leaf a) (.leaf i))) = [.write (.leaf a) (some (.leaf i))]
    ∧ reqs false (.op .addAssign (.fetch (.leaf a) (.leaf i)) e)
      = .write (.leaf a) (some (.leaf i)) :: reqs false e := by
  refine ⟨?_, ?_, ?_, ?_⟩ <;> simp [reqs, demand]

/-- `*(p + a[i]) = x` requires `a[i]` to be writable, and not to be readable. -/
theorem C99_below_assigned (p a i x : Nat) :
    reqs false (.assign (.pre .deref (.parens (.op .plain (.leaf p) (.fetch (.leaf a) (.leaf i)))))
        (.leaf x))
      = [.write (.parens (.op .plain (.leaf p) (.fetch (.leaf a) (.leaf i)))) none,
          .write (.leaf a) (some (.leaf i))] := by
  simp [reqs, demand]

/-- `&a[i]` requires `a[i]` to be readable, though it is not read. -/
theorem C99_address (a i : Nat) :
    reqs false (.pre .addr (.fetch (.leaf a) (.leaf i))) = [.read (.leaf a) (some (.leaf i))]
    ∧ needs .value (.pre .addr (.fetch (.leaf a) (.leaf i))) = [] := by
  refine ⟨?_, ?_⟩ <;> simp [reqs, demand, needs, access]

/-- `c ? a[i] : 0` -/
theorem C99_full_is_false : ¬ C99_full := by
  intro h
  have := h (.cond (.leaf 0) (.fetch (.leaf 1) (.leaf 2)) (.leaf 3)) (.read (.leaf 1) (some (.leaf 2)))
    (by decide)
  simp [reqs] at this

/-- The accesses of the operand of `sizeof` are not made, and none is required. -/
theorem C99_sizeof (m : Mode) (lv : Bool) (e : Exp) :
    reqs lv (.sizeOf e) = [] ∧ needs m (.sizeOf e) = [] := ⟨rfl, rfl⟩

end Splint.Access
