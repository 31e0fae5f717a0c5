import Verif.Proofs.Transfer
/-!
# C68–C71: transfers of storage
-/
namespace Splint.Transfer
open Spec

/-- A reference and facts for the examples: all messages are shown. -/
def ref0 (k : AlKind) : Ref :=
  { al := k, oal := k, ex := .unknown, oex := .unknown, defst := .defined, null := .notNull }
def fact0 (tt : TT) : Fact := { tt := tt, on := fun _ => true }

theorem plain0 (tt : TT) : Plain (fact0 tt) := ⟨fun _ => rfl, rfl, rfl, rfl⟩
theorem proper0 (tt : TT) (k : AlKind) : Proper (fact0 tt) (ref0 k) := ⟨rfl, rfl, rfl, rfl, rfl⟩

/-! ## C68: only the owner of storage gives it away -/

/-- C68: passing storage that is not one's own to a parameter that will release it (`only`, `keep`, `owned`) is reported. -/
def C68_full : Prop :=
  ∀ (e : Fact) (s : St), Plain e → e.tt = .fcnPass → Proper e s.f → s.out = [] → Borrowed s.f.al → Takes s.t.al →
    Reported (checkAux e s)

/-- It does not hold: a `unique` parameter, an array of the function, shared storage passed as `keep` and
storage of which nothing is known passed as `owned` are given away without a message. -/
theorem C68_full_is_false : ¬ C68_full := by
  intro h
  exact absurd (h (fact0 .fcnPass) ⟨ref0 .unique, ref0 .only, []⟩ (plain0 _) rfl (proper0 _ _) rfl
    ⟨by decide, by decide⟩ trivial) (by decide +kernel)

/-- The other kinds of storage that are missed. -/
theorem C68_missed :
    ¬ Reported (checkAux (fact0 .fcnPass) ⟨ref0 .unique, ref0 .only, []⟩) ∧
    ¬ Reported (checkAux (fact0 .fcnPass) ⟨ref0 .stack, ref0 .only, []⟩) ∧
    ¬ Reported (checkAux (fact0 .fcnPass) ⟨ref0 .shared, ref0 .keep, []⟩) ∧
    ¬ Reported (checkAux (fact0 .fcnPass) ⟨ref0 .shared, ref0 .owned, []⟩) ∧
    ¬ Reported (checkAux (fact0 .fcnPass) ⟨ref0 .unknown, ref0 .owned, []⟩) ∧
    ¬ Reported (checkAux (fact0 .fcnPass) ⟨ref0 .static, ref0 .owned, []⟩) ∧
    ¬ Reported (checkAux (fact0 .fcnPass) ⟨{ ref0 .unknown with isAddress := true }, ref0 .owned, []⟩) := by
  decide +kernel

/-- What is missed, exactly. -/
theorem C68_exactly (e : Fact) (s : St) (hp : Plain e) (ht : e.tt = .fcnPass) (hf : Proper e s.f)
    (h0 : s.out = []) (hb : Borrowed s.f.al) (hk : Takes s.t.al) :
    ¬ Reported (checkAux e s) ↔ Missed e s.f s.t :=
  pass_exactly e s hp ht hf h0 hb hk

example : Borrowed AlKind.unknown ∧ Takes AlKind.only ∧
    Reported (checkAux (fact0 .fcnPass) ⟨ref0 .unknown, ref0 .only, []⟩) :=
  ⟨⟨by decide, by decide⟩, trivial, by decide +kernel⟩

/-- Storage that is lent, was handed over already or is counted is reported whether it is passed or returned, for the reference
itself and in the passes over its aliases. -/
theorem C68_lent_partial (e : Fact) (s : St) (ht : e.tt = .fcnPass ∨ e.tt = .fcnReturn) (on : ∀ m, e.on m = true)
    (st : e.strictReleased = true) (n2 : e.nullValue = false) (n3 : e.expMutable = true) (hc : s.f.isConst = false)
    (hk : Takes s.t.al) (hl : Lent s.f.al s.t.al) : Reported (checkAux e s) :=
  lent_aux e s ht on st n2 n3 hc hk hl

example : Lent .temp .only ∧ Takes .only ∧ Reported (checkAux (fact0 .fcnReturn) ⟨ref0 .temp, ref0 .only, []⟩) :=
  ⟨trivial, trivial, by decide +kernel⟩

/-- The same for assignments to a field or to a global variable. -/
theorem C68_assign_partial (e : Fact) (s : St) (ht : e.tt = .doAssign) (on : ∀ m, e.on m = true)
    (st : e.strictReleased = true) (n2 : e.nullValue = false) (n3 : e.expMutable = true) (hc : s.f.isConst = false)
    (hn : e.sameName = false) (hr : s.t.isReference = true ∧ s.t.isLocal = false) (ho : s.t.oal = s.t.al)
    (hkr : s.f.al ≠ .killRef) (hns : s.t.nsLocal = false)
    (hk : Takes s.t.al) (hl : Lent s.f.al s.t.al) : Reported (checkAux e s) :=
  lent_assign e s ht on st n2 n3 hc hn hr ho hkr hns hk hl

example : Reported (checkAux (fact0 .doAssign) ⟨ref0 .temp, { ref0 .only with isReference := true, defst := .undefined }, []⟩) := by
  decide +kernel

/-- A local variable is no hiding place: if it is another name for storage that is lent, passing it is reported. -/
theorem C68_alias (e : Fact) (s : St) (aliases : List (Ref × Fact)) (ht : e.tt = .fcnPass) (hloc : s.f.isLocal = true)
    (hk : Takes s.t.al) (a : Ref × Fact) (ha : a ∈ aliases) (on : ∀ m, a.2.on m = true)
    (st : a.2.strictReleased = true) (n2 : a.2.nullValue = false) (n3 : a.2.expMutable = true) (hc : a.1.isConst = false)
    (hl : Lent a.1.al s.t.al) : Reported (checkTransfer e aliases s) := by
  unfold checkTransfer
  simp only [hloc, if_true]
  exact checkAux_reported _ _ (alias_lent e.tt ht aliases s hk a ha on st n2 n3 hc hl)

example : Reported (checkTransfer (fact0 .fcnPass) [(ref0 .temp, fact0 .fcnPass)]
      ⟨{ ref0 .local_ with isLocal := true, nsLocal := true }, ref0 .only, []⟩) ∧
    ¬ Reported (checkTransfer (fact0 .fcnPass) []
      ⟨{ ref0 .local_ with isLocal := true, nsLocal := true }, ref0 .only, []⟩) := by
  decide +kernel

/-! ## C69: new storage is not lost -/

/-- C69: when new storage is assigned, a message is shown or the receiver is one by way of which it will be released. -/
def C69_full : Prop :=
  ∀ (e : Fact) (s : St), Plain e → e.tt = .doAssign → e.sameName = false → isOnly s.f.al → s.f.isNew = true →
    Proper e s.f → (s.f.ex = .unknown ∨ s.f.ex = .normal) → s.t.isConst = false → s.t.al ≠ .error → s.t.oal ≠ .error →
    s.t.isMutable = true → Reported (checkAux e s) ∨ Holds (checkAux e s).t.al

/-- A global variable that is an observer. -/
def observerVar : Ref :=
  { ref0 .dependent with ex := .observer, oex := .observer, isCvar := true, isGlobal := true, rootGlobal := true }

/-- It does not hold: nothing is said when new storage is assigned to a global variable that is an observer. -/
theorem C69_full_is_false : ¬ C69_full := by
  intro h
  exact absurd (h (fact0 .doAssign)
    ⟨{ ref0 .only with isNew := true }, observerVar, []⟩ (plain0 _) rfl rfl rfl rfl ⟨rfl, rfl, rfl, rfl, rfl⟩ (Or.inl rfl) rfl (by decide) (by decide)
    rfl) (by decide +kernel)

/-- It holds for receivers that are local, or neither exposed nor observers. -/
theorem C69_assign_partial (e : Fact) (s : St) (hp : Plain e) (ht : e.tt = .doAssign) (hn : e.sameName = false)
    (hf : isOnly s.f.al) (hnew : s.f.isNew = true) (hpr : Proper e s.f)
    (hex : s.f.ex = .unknown ∨ s.f.ex = .normal) (htc : s.t.isConst = false)
    (hte : s.t.al ≠ .error) (hto : s.t.oal ≠ .error) (hm : s.t.isMutable = true)
    (hx : (s.t.oex = .unknown ∨ s.t.oex = .normal) ∨ s.t.nsLocal = true) :
    Reported (checkAux e s) ∨ Holds (checkAux e s).t.al :=
  new_assign e s hp.on hp.ffix hp.tfix ht hn hf hnew hex hpr.notConst htc hte hto hm hx

/-- `p = malloc (...)` makes `p` fresh; assigning the same to a dependent field is reported. -/
example :
    (checkAux (fact0 .doAssign) ⟨{ ref0 .only with isNew := true }, { ref0 .local_ with isLocal := true, nsLocal := true }, []⟩).t.al
      = .fresh ∧
    Reported (checkAux (fact0 .doAssign) ⟨{ ref0 .only with isNew := true }, { ref0 .dependent with isReference := true }, []⟩) := by
  decide +kernel

/-- New storage, and storage held by local variables, is not returned as a result that need not be released without a
message. -/
theorem C69_return_partial (e : Fact) (s : St) (on : ∀ m, e.on m = true) (ht : e.tt = .fcnReturn)
    (hmi : e.memImplicit = true) (hf : isOnly s.f.al ∧ s.f.isNew = true ∨ s.f.al = .fresh) (hnl : s.t.nsLocal = false)
    (hte : s.t.al ≠ .error ∧ s.t.al ≠ .local_) (hk : ¬ Takes s.t.al) (hnr : s.t.al ≠ .newRef) :
    Reported (checkAux e s) :=
  new_return e s on ht hmi hf hnl hte hk hnr

example : Reported (checkAux (fact0 .fcnReturn) ⟨ref0 .fresh, ref0 .impDependent, []⟩) ∧
    ¬ Reported (checkAux (fact0 .fcnReturn) ⟨ref0 .fresh, ref0 .only, []⟩) := by
  decide +kernel

/-- New storage is not passed to a parameter that does not take it over without a message ... -/
theorem C69_pass_partial (e : Fact) (returned : Bool) (aliases : List (Ref × Fact)) (s : St) (on : ∀ m, e.on m = true)
    (hnew : s.f.isNew = true) (hloc : s.f.isLocal = false) (hf : isOnly s.f.al ∨ s.f.al = .fresh) (hte : s.t.al ≠ .error)
    (hr : returned = false) (hk : ¬ Takes s.t.al) : Reported (passParam e false returned aliases s) := by
  unfold passParam checkTransfer
  have ho : isOnly s.t.al = false := by
    cases hta : s.t.al <;> simp [hta, Takes] at hk <;> rfl
  have hkeep : s.t.al ≠ .keep := by intro h; rw [h] at hk; exact hk trivial
  have hown : s.t.al ≠ .owned := by intro h; rw [h] at hk; exact hk trivial
  have hc : (decide (s.f.al = .fresh) || isOnly s.f.al) = true := by
    rcases hf with h | h <;> simp [h]
  simp only [Bool.false_eq_true, if_false, hnew, if_true, hc, ho, hkeep, hown, hte, hr, Bool.not_false, ne_eq,
    not_false_eq_true, decide_true, Bool.and_self, say_f, hloc]
  exact checkAux_reported _ _ (reported_say _ _ _ on rfl)

/-- ... except to a parameter with a state clause, of which nothing is checked here. -/
theorem C69_pass_special (e : Fact) (returned : Bool) (aliases : List (Ref × Fact)) (s : St) :
    passParam e true returned aliases s = s := rfl

example : Reported (passParam (fact0 .fcnPass) false false [] ⟨{ ref0 .only with isNew := true }, ref0 .temp, []⟩) := by
  decide +kernel

/-! ## C70: storage that was given away is not the source's any more -/

/-- C70: after a call with a parameter that takes the storage, the argument is dead (`only`), kept (`keep`) or dependent (`owned`),
whatever messages are turned off, unless it is shared or a constant. So for the references that are aliases of it (`tfix`). -/
theorem C70_given (e : Fact) (s : St) (ht : e.tt = .fcnPass) (hk : Takes s.t.al) (hff : e.ffix = false)
    (hc : s.f.isConst = false) (hs : s.f.al ≠ .shared) :
    (isOnly s.t.al → Gone (checkAux e s).f) ∧
    (s.t.al = .keep → (checkAux e s).f.al = .kept ∨ Gone (checkAux e s).f) ∧
    (s.t.al = .owned → (checkAux e s).f.al = .dependent ∨ Gone (checkAux e s).f) :=
  pass_f e s ht hk hff hc hs

example : (checkAux (fact0 .fcnPass) ⟨ref0 .only, ref0 .only, []⟩).f.defst = .dead ∧
    (checkAux (fact0 .fcnPass) ⟨ref0 .fresh, ref0 .keep, []⟩).f.al = .kept ∧
    (checkAux (fact0 .fcnPass) ⟨ref0 .fresh, ref0 .owned, []⟩).f.al = .dependent := by
  decide +kernel

/-- The parameter itself stays as it was declared. -/
theorem C70_parameter (e : Fact) (s : St) (ht : e.tt = .fcnPass) (hk : Takes s.t.al) : (checkAux e s).t = s.t :=
  pass_t e s ht hk

/-- Shared storage is not dead after it was released, so that its later use is not reported. -/
theorem C70_shared : (checkAux (fact0 .fcnPass) ⟨ref0 .shared, ref0 .only, []⟩).f.defst = .defined := by
  decide +kernel

/-! ## C71: null pointers -/

/-- The references are ones that may be null, for one that need not be checked. -/
def NullHere : NState → Prop
  | .constNull | .posNull | .defNull => True
  | _ => False

/-- What was declared for the receiver allows null, or no check (`relnull`). -/
def NullThere : NState → Prop
  | .constNull | .posNull | .defNull | .relNull => True
  | _ => False

/-- C71: passing a pointer that may be null (and was not tested) is reported exactly when the parameter is not declared as one that
may be null. -/
theorem C71_pass (e : Fact) (s : St) (hp : Plain e) (ht : e.tt = .fcnPass) (h0 : s.out = []) (hi : e.isPointer = true)
    (hf : s.f.null ≠ .absNull) (htn : s.t.null ≠ .absNull) (hl : s.t.al ≠ .local_ ∧ s.t.al ≠ .fresh) :
    Msg.nullPass ∈ (checkAux e s).out ↔ NullHere s.f.null ∧ e.guarded = false ∧ ¬ NullThere s.t.null := by
  obtain ⟨l, h1, h2⟩ := ext_checkAux' e s
  simp only [hp.ffix, hp.tfix, Bool.not_false, Bool.and_self, if_true] at h1
  have hm : Msg.nullPass ∈ (checkAux e s).out ↔ Msg.nullPass ∈ (checkNull e s).out := by
    rw [h1, List.mem_append]
    constructor
    · rintro (h | h)
      · exact h
      · exact absurd (h2 _ h) (by decide)
    · exact Or.inl
  rw [hm]
  unfold checkNull possiblyNull perhapsNull
  simp only [hf, htn, if_false, ht, hi, hl.1, hl.2, St.say, hp.on, h0, if_true, reduceCtorEq, ne_eq, not_false_eq_true,
    decide_true, Bool.true_and, Bool.and_true]
  cases hg : e.guarded <;> cases hfn : s.f.null <;> cases htn' : s.t.null <;>
    simp_all [NullHere, NullThere, NState.possiblyNull, NState.perhapsNull, NState.toInt]

example : Msg.nullPass ∈ (checkAux (fact0 .fcnPass) ⟨{ ref0 .temp with null := .posNull }, ref0 .temp, []⟩).out := by
  decide +kernel

/-- The same for returns. -/
theorem C71_return (e : Fact) (s : St) (hp : Plain e) (ht : e.tt = .fcnReturn) (h0 : s.out = []) (hi : e.isPointer = true)
    (hf : s.f.null ≠ .absNull) (htn : s.t.null ≠ .absNull) (hl : s.t.al ≠ .local_ ∧ s.t.al ≠ .fresh) :
    Msg.nullRet ∈ (checkAux e s).out ↔ NullHere s.f.null ∧ e.guarded = false ∧ ¬ NullThere s.t.null := by
  obtain ⟨l, h1, h2⟩ := ext_checkAux' e s
  simp only [hp.ffix, hp.tfix, Bool.not_false, Bool.and_self, if_true] at h1
  have hm : Msg.nullRet ∈ (checkAux e s).out ↔ Msg.nullRet ∈ (checkNull e s).out := by
    rw [h1, List.mem_append]
    constructor
    · rintro (h | h)
      · exact h
      · exact absurd (h2 _ h) (by decide)
    · exact Or.inl
  rw [hm]
  unfold checkNull possiblyNull perhapsNull
  simp only [hf, htn, if_false, ht, hi, hl.1, hl.2, St.say, hp.on, h0, if_true, reduceCtorEq, ne_eq, not_false_eq_true,
    decide_true, Bool.true_and, Bool.and_true]
  cases hg : e.guarded <;> cases hfn : s.f.null <;> cases htn' : s.t.null <;>
    simp_all [NullHere, NullThere, NState.possiblyNull, NState.perhapsNull, NState.toInt]

example : Msg.nullRet ∈ (checkAux (fact0 .fcnReturn) ⟨{ ref0 .only with null := .posNull }, ref0 .only, []⟩).out ∧
    Msg.nullRet ∉ (checkAux (fact0 .fcnReturn) ⟨{ ref0 .only with null := .posNull }, { ref0 .only with null := .posNull }, []⟩).out := by
  decide +kernel

end Splint.Transfer
