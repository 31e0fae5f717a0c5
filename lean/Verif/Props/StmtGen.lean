import Verif.Spec.StmtGen
/-!
C101: if the requirements computed for a statement hold before it, none of its accesses is out of
bounds.
-/
namespace Splint.StmtGen
open Spec

variable {C S A T : Type}

/-- The state a statement ends in. -/
def Spec.Out.state? : Out S → Option S
  | .fault => none
  | .norm σ => some σ
  | .brk σ => some σ
  | .cont σ => some σ
  | .ret σ => some σ

theorem next_state {o : Out S} {σ : S} (h : o = .norm σ ∨ o = .cont σ) : o.state? = some σ := by
  rcases h with rfl | rfl <;> rfl

def StillC (M : Sem S A T) : Code A T → Prop
  | .s s => Still M s
  | .loop t i s => (∀ σ σ', M.stepT t σ σ' → σ' = σ) ∧ (∀ σ σ', M.step i σ σ' → σ' = σ) ∧ Still M s

theorem still_same (M : Sem S A T) {c : Code A T} {σ : S} {o : Out S} (h : Exec M c σ o) :
    StillC M c → ∀ σ', o.state? = some σ' → σ' = σ := by
  induction h with
  | act _ hs => rintro hc σ' ⟨⟩; exact hc _ _ hs
  | actBad => rintro hc σ' ⟨⟩
  | ret _ hs => rintro hc σ' ⟨⟩; exact hc _ _ hs
  | retBad => rintro hc σ' ⟨⟩
  | brk => rintro hc σ' ⟨⟩; rfl
  | cont => rintro hc σ' ⟨⟩; rfl
  | seq _ _ ih1 ih2 =>
    intro hc σ' ho
    rw [ih2 hc.2 σ' ho]
    exact ih1 hc.1 _ rfl
  | seqStop _ _ ih => intro hc σ' ho; exact ih hc.1 σ' ho
  | block _ ih => intro hc σ' ho; exact ih hc σ' ho
  | ifBad => rintro hc σ' ⟨⟩
  | ifTrue _ ht _ _ ih => intro hc σ' ho; rw [ih hc.2 σ' ho]; exact hc.1 _ _ ht
  | ifFalse _ ht => rintro hc σ' ⟨⟩; exact hc.1 _ _ ht
  | elseBad => rintro hc σ' ⟨⟩
  | elseTrue _ ht _ _ ih => intro hc σ' ho; rw [ih hc.2.1 σ' ho]; exact hc.1 _ _ ht
  | elseFalse _ ht _ _ ih => intro hc σ' ho; rw [ih hc.2.2 σ' ho]; exact hc.1 _ _ ht
  | whileBad => rintro hc σ' ⟨⟩
  | whileEnd _ ht => rintro hc σ' ⟨⟩; exact hc.1 _ _ ht
  | whileNext _ ht _ _ ho _ ih1 ih2 =>
    intro hc σ' ho'
    rw [ih2 hc σ' ho', ih1 hc.2 _ (next_state ho)]
    exact hc.1 _ _ ht
  | whileBrk _ ht _ _ ih => rintro hc σ' ⟨⟩; rw [ih hc.2 _ rfl]; exact hc.1 _ _ ht
  | whileRet _ ht _ _ ih => rintro hc σ' ⟨⟩; rw [ih hc.2 _ rfl]; exact hc.1 _ _ ht
  | whileFault => rintro hc σ' ⟨⟩
  | doFault => rintro hc σ' ⟨⟩
  | doRet _ ih => rintro hc σ' ⟨⟩; exact ih hc.2 _ rfl
  | doBrk _ ih => rintro hc σ' ⟨⟩; exact ih hc.2 _ rfl
  | doBad => rintro hc σ' ⟨⟩
  | doEnd _ ho _ ht _ ih =>
    rintro hc σ' ⟨⟩
    rw [hc.1 _ _ ht]
    exact ih hc.2 _ (next_state ho)
  | doNext _ ho _ ht _ _ ih1 ih2 =>
    intro hc σ' ho'
    rw [ih2 hc σ' ho', hc.1 _ _ ht]
    exact ih1 hc.2 _ (next_state ho)
  | forBad => rintro hc σ' ⟨⟩
  | «for» _ ha _ ih =>
    intro hc σ' ho
    rw [ih ⟨hc.2.1, hc.2.2.1, hc.2.2.2⟩ σ' ho]
    exact hc.1 _ _ ha
  | loopBad => rintro hc σ' ⟨⟩
  | loopEnd _ ht => rintro hc σ' ⟨⟩; exact hc.1 _ _ ht
  | loopFault => rintro hc σ' ⟨⟩
  | loopRet _ ht _ _ ih => rintro hc σ' ⟨⟩; rw [ih hc.2.2 _ rfl]; exact hc.1 _ _ ht
  | loopBrk _ ht _ _ ih => rintro hc σ' ⟨⟩; rw [ih hc.2.2 _ rfl]; exact hc.1 _ _ ht
  | loopInc => rintro hc σ' ⟨⟩
  | loopNext _ ht _ _ ho _ hi _ ih1 ih2 =>
    intro hc σ' ho'
    rw [ih2 hc σ' ho', hc.2.1 _ _ hi, ih1 hc.2.2 _ (next_state ho)]
    exact hc.1 _ _ ht

/-- Every statement's requirements are sufficient and its facts right, if those of the expressions and
tests and the operations are. -/
def C101_full : Prop := ∀ (C S A T : Type) (N : Meaning C S) (M : Sem S A T) (O : Ops C)
  (G : Given C A T), Right N O → Known N M G → (∀ t i R E, ∀ r ∈ R, r ∈ G.extra t i R E) →
  ∀ s, Sound N M O G s

theorem while_sound (N : Meaning C S) (M : Sem S A T) (O : Ops C) (G : Given C A T)
    (hO : Right N O) (hG : Known N M G) (may : Bool) (t : T) (s : Stmt A T) (hs : Sound N M O G s)
    (hst : Still M s) (ht : ∀ σ σ', M.stepT t σ σ' → σ' = σ)
    (hm : may = true → ∀ σ σ', ¬ Exec M (.s s) σ (.brk σ')) :
    ∀ σ o, Exec M (.s (.while may t s)) σ o → (∀ r ∈ (gen O G (.while may t s)).req, N.holds r σ) →
      o ≠ .fault ∧ ∀ σ', o = .norm σ' → N.desc (gen O G (.while may t s)).ens σ σ' := by
  intro σ o h
  generalize hc : Code.s (.while may t s) = c at h
  -- the requirements of the test and of the body
  have key : ∀ σ, (∀ r ∈ (gen O G (.while may t s)).req, N.holds r σ) →
      M.safeT t σ ∧ ∀ σ', M.stepT t σ σ' → M.truth t σ' → ∀ r ∈ (gen O G s).req, N.holds r σ' := by
    intro σ hr
    obtain ⟨h1, h2⟩ := hO.mergeReq _ _ _ hr
    have hsafe := hG.safeT t σ h2
    refine ⟨hsafe, fun σ' hst ht => ?_⟩
    exact hO.reflect _ _ _ _ (hG.true_ t σ σ' hsafe hst ht)
      (hO.reflect _ _ _ _ (hG.stepT t σ σ' hsafe hst) h1)
  induction h with
  | whileBad hb => cases hc; intro hr; exact absurd (key _ hr).1 hb
  | whileEnd hb hstep hf =>
    cases hc
    intro hr
    refine ⟨by simp, ?_⟩
    rintro σ' ⟨⟩
    have hd := hG.stepT t _ _ hb hstep
    simp only [gen, doIf]
    split
    · exact hO.mergeEns _ _ _ _ _ hd (hG.ownFalse t _ _ hb hstep hf)
    · exact hd
  | whileNext hb hstep htr hex ho hrest _ ih2 =>
    cases hc
    intro hr
    have e1 := ht _ _ hstep
    have e2 := still_same M hex hst _ (next_state ho)
    rw [e2, e1] at ih2
    exact ih2 rfl hr
  | whileBrk hb hstep htr hex =>
    cases hc
    intro hr
    refine ⟨by simp, ?_⟩
    rintro σ' ⟨⟩
    have e2 := still_same M hex hst _ rfl
    rw [e2]
    have hd := hG.stepT t _ _ hb hstep
    simp only [gen, doIf]
    split
    · exact absurd hex (hm (by assumption) _ _)
    · exact hd
  | whileRet => cases hc; intro hr; exact ⟨by simp, by simp⟩
  | whileFault hb hstep htr hex =>
    cases hc
    intro hr
    exact absurd hex (hs _ ((key _ hr).2 _ hstep htr)).1
  | _ => cases hc

/-- Missing for `C101_full`: branches and bodies of loops that change something, branches that may but
need not be left, and `do` and `for` loops. -/
theorem C101_partial (N : Meaning C S) (M : Sem S A T) (O : Ops C) (G : Given C A T)
    (hO : Right N O) (hG : Known N M G) (s : Stmt A T) (hs : Tame M s) : Sound N M O G s := by
  induction s with
  | act a =>
    intro σ hr
    have hsafe := hG.safe a σ hr
    refine ⟨?_, ?_⟩
    · intro h; cases h with | actBad hb => exact hb hsafe
    · intro σ' h; cases h with | act _ hst => exact hG.step a σ σ' hsafe hst
  | ret a =>
    intro σ hr
    have hsafe := hG.safe a σ hr
    refine ⟨?_, ?_⟩
    · intro h; cases h with | retBad hb => exact hb hsafe
    · intro σ' h; cases h
  | brk => intro σ _; exact ⟨fun h => (by cases h), fun σ' h => (by cases h)⟩
  | cont => intro σ _; exact ⟨fun h => (by cases h), fun σ' h => (by cases h)⟩
  | seq s1 s2 ih1 ih2 =>
    intro σ hr
    obtain ⟨h1, h2⟩ := hO.mergeReq _ _ _ hr
    obtain ⟨f1, n1⟩ := ih1 hs.1 σ h1
    refine ⟨?_, ?_⟩
    · intro h
      cases h with
      | seq ha hb => exact (ih2 hs.2 _ (hO.reflect _ _ _ _ (n1 _ ha) h2)).1 hb
      | seqStop ha _ => exact f1 ha
    · intro σ' h
      cases h with
      | seq ha hb =>
        have hd := n1 _ ha
        exact hO.mergeEns _ _ _ _ _ hd ((ih2 hs.2 _ (hO.reflect _ _ _ _ hd h2)).2 _ hb)
      | seqStop ha hn => exact absurd trivial hn
  | block s ih =>
    intro σ hr
    obtain ⟨f, n⟩ := ih hs σ hr
    refine ⟨?_, ?_⟩
    · intro h; cases h with | block h => exact f h
    · intro σ' h; cases h with | block h => exact n σ' h
  | ifThen may t s ih =>
    intro σ hr
    obtain ⟨hs1, hst, hm⟩ := hs
    obtain ⟨h1, h2⟩ := hO.mergeReq _ _ _ hr
    have hsafe := hG.safeT t σ h2
    have hb : ∀ σ', M.stepT t σ σ' → M.truth t σ' → ∀ r ∈ (gen O G s).req, N.holds r σ' := by
      intro σ' hstep htr
      exact hO.reflect _ _ _ _ (hG.true_ t σ σ' hsafe hstep htr)
        (hO.reflect _ _ _ _ (hG.stepT t σ σ' hsafe hstep) h1)
    refine ⟨?_, ?_⟩
    · intro h
      cases h with
      | ifBad hn => exact hn hsafe
      | ifTrue _ hstep htr he => exact (ih hs1 _ (hb _ hstep htr)).1 he
    · intro σ' h
      cases h with
      | ifTrue _ hstep htr he =>
        have e := still_same M he hst _ rfl
        rw [e]
        have hd := hG.stepT t _ _ hsafe hstep
        simp only [gen, doIf]
        split
        · exact absurd he (hm (by assumption) _ _)
        · exact hd
      | ifFalse _ hstep hf =>
        have hd := hG.stepT t _ _ hsafe hstep
        simp only [gen, doIf]
        split
        · exact hO.mergeEns _ _ _ _ _ hd (hG.ownFalse t _ _ hsafe hstep hf)
        · exact hd
  | ifElse t s1 s2 ih1 ih2 =>
    intro σ hr
    obtain ⟨a1, a2, b1, b2, ht⟩ := hs
    obtain ⟨h12, h3⟩ := hO.mergeReq _ _ _ hr
    obtain ⟨h1, h2⟩ := hO.mergeReq _ _ _ h12
    have hsafe := hG.safeT t σ h3
    have k1 : ∀ σ', M.stepT t σ σ' → M.truth t σ' → ∀ r ∈ (gen O G s1).req, N.holds r σ' := by
      intro σ' hstep htr
      exact hO.reflect _ _ _ _ (hG.true_ t σ σ' hsafe hstep htr)
        (hO.reflect _ _ _ _ (hG.stepT t σ σ' hsafe hstep) h1)
    have k2 : ∀ σ', M.stepT t σ σ' → ¬ M.truth t σ' → ∀ r ∈ (gen O G s2).req, N.holds r σ' := by
      intro σ' hstep htr
      exact hO.reflect _ _ _ _ (hG.false_ t σ σ' hsafe hstep htr)
        (hO.reflect _ _ _ _ (hG.stepT t σ σ' hsafe hstep) h2)
    refine ⟨?_, ?_⟩
    · intro h
      cases h with
      | elseBad hn => exact hn hsafe
      | elseTrue _ hstep htr he => exact (ih1 a1 _ (k1 _ hstep htr)).1 he
      | elseFalse _ hstep htr he => exact (ih2 a2 _ (k2 _ hstep htr)).1 he
    · intro σ' h
      cases h with
      | elseTrue _ hstep htr he =>
        have d1 := hG.stepT t _ _ hsafe hstep
        have d2 := hG.true_ t _ _ hsafe hstep htr
        have d3 := (ih1 a1 _ (k1 _ hstep htr)).2 _ he
        have d := hO.mergeEns _ _ _ _ _ d1 (hO.mergeEns _ _ _ _ _ d2 d3)
        have e1 := still_same M he b1 _ rfl
        have e2 := ht _ _ hstep
        rw [e1, e2] at d ⊢
        exact hO.or _ _ _ (Or.inl d)
      | elseFalse _ hstep htr he =>
        have d1 := hG.stepT t _ _ hsafe hstep
        have d2 := hG.false_ t _ _ hsafe hstep htr
        have d3 := (ih2 a2 _ (k2 _ hstep htr)).2 _ he
        have d := hO.mergeEns _ _ _ _ _ d1 (hO.mergeEns _ _ _ _ _ d2 d3)
        have e1 := still_same M he b2 _ rfl
        have e2 := ht _ _ hstep
        rw [e1, e2] at d ⊢
        exact hO.or _ _ _ (Or.inr d)
  | «while» may t s ih =>
    obtain ⟨hs1, hst, ht, hm⟩ := hs
    intro σ hr
    have := while_sound N M O G hO hG may t s (ih hs1) hst ht hm σ
    exact ⟨fun h => (this _ h hr).1 rfl, fun σ' h => (this _ h hr).2 σ' rfl⟩
  | doWhile s t => exact absurd hs (by simp [Tame])
  | «for» b a t i s => exact absurd hs (by simp [Tame])

/-! What is never looked at, for any operations. -/

/-- The test of a `do` loop does not matter at all. -/
theorem C101_do_test (O : Ops C) (G : Given C A T) (s : Stmt A T) (t : T) :
    gen O G (.doWhile s t) = gen O G s := rfl

/-- Neither the initialisation of a `for` loop nor the requirements of its test and its increment
matter. -/
theorem C101_for_parts (O : Ops C) (G G' : Given C A T) (b : Bool) (a a' : A) (t : T) (i : A)
    (s : Stmt A T) (hs : gen O G' s = gen O G s) (hx : G'.extra = G.extra)
    (ht : (G'.test t).ownEns = (G.test t).ownEns ∧ (G'.test t).trueEns = (G.test t).trueEns
      ∧ (G'.test t).ownFalse = (G.test t).ownFalse) :
    gen O G' (.for b a' t i s) = gen O G (.for b a t i s) := by
  simp only [gen, hs, hx, ht]

/-- After a loop that may be left by `break` nothing is known, not even that the test is false. -/
theorem C101_for_break (O : Ops C) (G : Given C A T) (a : A) (t : T) (i : A) (s : Stmt A T) :
    (gen O G (.for true a t i s)).ens = [] := rfl

/-- The changes made by a branch without `else` and by the body of a `while` loop do not matter. -/
theorem C101_if_facts (O : Ops C) (G : Given C A T) (may : Bool) (t : T) (s s' : Stmt A T) :
    (gen O G (.ifThen may t s')).ens = (gen O G (.ifThen may t s)).ens
    ∧ (gen O G (.while may t s')).ens = (gen O G (.ifThen may t s)).ens := ⟨rfl, rfl⟩

/-! A system in which the conditions hold: the state is a number, `need k` requires it to be at least
`k`, and `add d` says that it has been increased by `d`. -/

inductive Toy where
  | need (k : Int)
  | add (d : Int)
  deriving DecidableEq

def total : List Toy → Int
  | [] => 0
  | .add d :: l => d + total l
  | .need _ :: l => total l

def toyReflect (E : List Toy) : Toy → Toy
  | .need k => .need (k - total E)
  | .add d => .add d

def toyOps : Ops Toy where
  reflect R E := R.map (toyReflect E)
  mergeReq := (· ++ ·)
  mergeEns := (· ++ ·)
  or _ _ := []
  addList := (· ++ ·)

def toyMeaning : Meaning Toy Int where
  holds
    | .need k, σ => σ ≥ k
    | .add _, _ => True
  desc E σ σ' := σ' = σ + total E

theorem total_append (a b : List Toy) : total (a ++ b) = total a + total b := by
  induction a with
  | nil => simp [total]
  | cons x a ih => cases x <;> simp [total, ih] <;> omega

theorem toy_right : Right toyMeaning toyOps where
  reflect := by
    intro R E σ σ' hd h r hr
    have := h (toyReflect E r) (List.mem_map_of_mem hr)
    cases r <;> simp_all [toyMeaning, toyReflect]
  mergeReq := by
    intro R1 R2 σ h
    exact ⟨fun r hr => h r (List.mem_append_left _ hr), fun r hr => h r (List.mem_append_right _ hr)⟩
  mergeEns := by
    intro E1 E2 σ σ1 σ2 h1 h2
    simp only [toyMeaning, toyOps, total_append] at *
    omega
  or := by intro E1 E2 σ _; simp [toyMeaning, toyOps, total]
  none := by intro σ; simp [toyMeaning, total]

/-- the actions: to use the element `k` of a buffer, whose size is the state, and to change the size -/
inductive Act where
  | use (k : Int)
  | change (d : Int)

/-- the tests: an unknown one, and one that uses an element -/
inductive Tst where
  | unknown
  | use (k : Int)

def toySem : Sem Int Act Tst where
  safe
    | .use k, σ => σ ≥ k
    | .change _, _ => True
  step
    | .use _, σ, σ' => σ' = σ
    | .change d, σ, σ' => σ' = σ + d
  safeT
    | .unknown, _ => True
    | .use k, σ => σ ≥ k
  stepT _ σ σ' := σ' = σ
  truth _ σ := σ > 100

def toyGiven : Given Toy Act Tst where
  ann
    | .use k => ⟨[.need k], []⟩
    | .change d => ⟨[], [.add d]⟩
  test
    | .unknown => ⟨[], [], [], [], [], []⟩
    | .use k => ⟨[.need k], [], [], [], [], []⟩
  extra _ _ R _ := R

theorem toy_known : Known toyMeaning toySem toyGiven where
  safe := by
    intro a σ h
    cases a <;> simp_all [toyGiven, toySem, toyMeaning]
  step := by
    intro a σ σ' _ h
    cases a <;> simp_all [toyGiven, toySem, toyMeaning, total]
  safeT := by
    intro a σ h
    cases a <;> simp_all [toyGiven, toySem, toyMeaning]
  stepT := by intro t σ σ' _ h; cases t <;> simp_all [toyGiven, toySem, toyMeaning, total]
  true_ := by intro t σ σ' _ _ _; cases t <;> simp [toyGiven, toyMeaning, total]
  false_ := by intro t σ σ' _ _ _; cases t <;> simp [toyGiven, toyMeaning, total]
  ownFalse := by intro t σ σ' _ _ _; cases t <;> simp [toyGiven, toyMeaning, total]

/-- `change 3; if (..) use 5;` has the requirement that the size is at least 2 before it, and meets the
conditions. -/
example : (gen toyOps toyGiven (.seq (.act (.change 3)) (.ifThen false .unknown (.act (.use 5))))).req
      = [.need 2]
    ∧ Tame toySem (.seq (.act (.change 3)) (.ifThen false .unknown (.act (.use 5)))) := by
  refine ⟨by decide, trivial, trivial, ?_, by simp⟩
  intro σ σ' h
  exact h

/-- `do { } while (use 5);` has no requirement. -/
theorem C101_full_is_false : ¬ C101_full := by
  intro h
  have hs := h Toy Int Act Tst toyMeaning toySem toyOps toyGiven toy_right toy_known
    (fun _ _ _ _ r hr => hr) (.doWhile (.act (.use 0)) (.use 5)) 1
    (by
      intro r hr
      simp only [gen, toyGiven, List.mem_singleton] at hr
      subst hr
      simp [toyMeaning])
  refine hs.1 (.doBad (o := .norm 1) (σ' := 1) (.act ?_ ?_) (Or.inl rfl) ?_)
  · simp [toySem]
  · simp [toySem]
  · simp [toySem]

/-- `for (change -5; ..; ) use 5;` requires 5 elements before it, but uses the fifth when there are 5
fewer. -/
theorem C101_for_wrong : ¬ Sound toyMeaning toySem toyOps toyGiven
    (.for false (.change (-105)) .unknown (.change 0) (.act (.use 150))) := by
  intro h
  have hs := h 250 (by
    intro r hr
    have : (gen toyOps toyGiven
        (.for false (.change (-105)) .unknown (.change 0) (.act (.use 150)))).req = [.need 150] := by
      decide
    rw [this, List.mem_singleton] at hr
    subst hr
    simp [toyMeaning])
  refine hs.1 (.for (σ' := 145) ?_ ?_ (.loopFault (σ' := 145) ?_ ?_ ?_ (.actBad ?_))) <;> simp [toySem]

/-- `if (..) change -60; use 100;` requires 100 elements before it, whether there are 60 fewer or
not. -/
theorem C101_branch_wrong : ¬ Sound toyMeaning toySem toyOps toyGiven
    (.seq (.ifThen false .unknown (.act (.change (-60)))) (.act (.use 100))) := by
  intro h
  have hs := h 150 (by
    intro r hr
    have : (gen toyOps toyGiven
        (.seq (.ifThen false .unknown (.act (.change (-60)))) (.act (.use 100)))).req = [.need 100] := by
      decide
    rw [this, List.mem_singleton] at hr
    subst hr
    simp [toyMeaning])
  refine hs.1 (.seq (σ' := 90) (.ifTrue (σ' := 150) ?_ ?_ ?_ (.act ?_ ?_)) (.actBad ?_)) <;> simp [toySem]

end Splint.StmtGen
