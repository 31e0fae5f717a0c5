import Verif.Props.StmtGen
/-!
C102: if the requirements computed for a `switch` statement hold before it, none of its accesses is out
of bounds, whichever case is entered.
-/
namespace Splint.StmtGen
open Spec

variable {C S A T : Type}

/-- The requirements of the tested expression do not matter. -/
theorem C102_tested (O : Ops C) (add1 : C → List C) (e e' : Ann C) (items : List (Item C)) :
    genSwitch O add1 e items = genSwitch O add1 e' items := rfl

theorem swItems_append (O : Ops C) (add1 : C → List C) (is js : List (Item C)) :
    ∀ f s, swItems O add1 f s (is ++ js)
      = swItems O add1 (f && is.isEmpty) (swItems O add1 f s is) js := by
  induction is with
  | nil => intro f s; simp [swItems]
  | cons i is ih => intro f s; simp [swItems, ih]

/-- no case is taken not to be run into -/
def NoEscape : List (Item C) → Prop
  | [] => True
  | .case must _ :: is => must = false ∧ NoEscape is
  | _ :: is => NoEscape is

theorem swItems_saved (O : Ops C) (add1 : C → List C) (is : List (Item C)) (h : NoEscape is) :
    ∀ f s, (swItems O add1 f s is).savReq = s.savReq := by
  induction is with
  | nil => intro f s; rfl
  | cons i is ih =>
    intro f s
    rw [swItems]
    cases i with
    | case must c =>
      obtain ⟨rfl, h⟩ := h
      rw [ih h]
      rfl
    | default => rw [ih h]; rfl
    | stmt a => rw [ih h]; rfl

/-- The requirements of a case that runs into the next one are forgotten at the next `case`: the
requirements of the whole statement are the same whatever they are. -/
theorem C102_fall_through (O : Ops C) (add1 : C → List C) (e : Ann C) (c : C) (is is' js : List (Item C))
    (h : NoEscape is) (h' : NoEscape is')
    (hk : O.or (swItems O add1 true {} is).curEns (add1 c) = O.or (swItems O add1 true {} is').curEns (add1 c))
    (hs : (swItems O add1 true {} is).savEns = (swItems O add1 true {} is').savEns)
    (hn : is ≠ []) (hn' : is' ≠ []) :
    genSwitch O add1 e (is ++ .case false c :: js) = genSwitch O add1 e (is' ++ .case false c :: js) := by
  have e1 : swItem O add1 false (swItems O add1 true {} is) (.case false c)
      = swItem O add1 false (swItems O add1 true {} is') (.case false c) := by
    simp [swItem, hk, hs, swItems_saved O add1 is h, swItems_saved O add1 is' h']
  have b1 : (true && is.isEmpty) = false := by cases is <;> simp_all
  have b2 : (true && is'.isEmpty) = false := by cases is' <;> simp_all
  simp only [genSwitch, swItems_append, swItems, b1, b2, e1]

/-- `case 0: use 5; case 1: use 3;` and `case 0: use 9; case 1: use 3;` -/
example :
    let sw := fun n => genSwitch toyOps (fun _ => []) ⟨[], []⟩ [.case false (.need 0), .stmt ⟨[.need n], []⟩,
      .case false (.need 1), .stmt ⟨[.need 3], []⟩]
    (sw 5).req = [.need 3] ∧ (sw 9).req = [.need 3] := by decide

/-- `default` is like an empty statement: what is known there is what is known at the end of the
statements before it, even if these are never passed.  So the requirements of the default case are
changed by the facts of the case before. -/
theorem C102_default (O : Ops C) (add1 : C → List C) (f : Bool) (s : SwSt C) (is : List (Item C)) :
    swItems O add1 f s (.default :: is) = swItems O add1 f s (.stmt ⟨[], []⟩ :: is) := rfl

/-- In `case 0: add 2; break; default: use 5;` the default case requires 3 elements only. -/
example : (swItems toyOps (fun _ => []) true {} [.case false (.need 0), .stmt ⟨[], [.add 2]⟩, .default,
    .stmt ⟨[.need 5], []⟩]).curReq = [.need 3] := by decide

/-- The cases of every `switch` statement are safe if its requirements hold. -/
def C102_full : Prop := ∀ (C S A T : Type) (N : Meaning C S) (M : Sem S A T) (O : Ops C)
  (G : Given C A T) (add1 : C → List C), Right N O → Known N M G → ∀ e (ss : List (Sect C A T)),
  (∀ x ∈ ss, ∀ s ∈ x.body, Tame M s) → Truthful M ss → SwSound N M O G add1 e ss

/-- `case 0: use 5; case 1: use 0;` has no requirement but 0 elements. -/
theorem C102_full_is_false : ¬ C102_full := by
  intro h
  have hs := h Toy Int Act Tst toyMeaning toySem toyOps toyGiven (fun _ => []) toy_right toy_known ⟨[], []⟩
    [⟨false, .need 0, [.act (.use 5)]⟩, ⟨false, .need 0, [.act (.use 0)]⟩]
    (by
      intro x hx s hs
      simp only [List.mem_cons, List.not_mem_nil, or_false] at hx
      rcases hx with rfl | rfl <;> simp only [List.mem_singleton] at hs <;> subst hs <;> trivial)
    ⟨by simp, trivial⟩ 1
    (by
      intro r hr
      have : (genSwitch toyOps (fun _ => []) ⟨[], []⟩ (items toyOps toyGiven
        [⟨false, .need 0, [.act (.use 5)]⟩, ⟨false, .need 0, [.act (.use 0)]⟩])).req = [.need 0] := by
        decide
      rw [this, List.mem_singleton] at hr
      subst hr
      simp [toyMeaning])
    [] ⟨false, .need 0, [.act (.use 5)]⟩ _ rfl (by simp [toyMeaning, total])
  refine hs (.stop (.actBad ?_) ?_)
  · simp [toySem]
  · simp [Out.IsNorm]

/-- statements only add to the current requirements -/
theorem body_req (N : Meaning C S) (M : Sem S A T) (O : Ops C) (G : Given C A T) (hO : Right N O)
    (add1 : C → List C) (σ : S) (l : List (Stmt A T)) : ∀ f s,
    (∀ r ∈ (swItems O add1 f s (l.map fun s => .stmt (gen O G s))).curReq, N.holds r σ) →
    ∀ r ∈ s.curReq, N.holds r σ := by
  induction l with
  | nil => intro f s h; exact h
  | cons a l ih =>
    intro f s h
    exact (hO.mergeReq _ _ _ (ih _ _ h)).1

theorem body_saved (O : Ops C) (G : Given C A T) (add1 : C → List C) (l : List (Stmt A T)) : ∀ f s,
    (swItems O add1 f s (l.map fun s => .stmt (gen O G s))).savReq = s.savReq := by
  induction l with
  | nil => intro f s; rfl
  | cons a l ih => intro f s; rw [List.map_cons, swItems, ih]; rfl

/-- the statements of a case are safe if the current requirements hold after them -/
theorem body_safe (N : Meaning C S) (M : Sem S A T) (O : Ops C) (G : Given C A T) (hO : Right N O)
    (hG : Known N M G) (add1 : C → List C) (σ : S) (l : List (Stmt A T)) (hl : ∀ s ∈ l, Tame M s) :
    ∀ f s σ0, N.desc s.curEns σ σ0 →
    (∀ r ∈ (swItems O add1 f s (l.map fun s => .stmt (gen O G s))).curReq, N.holds r σ) →
    ¬ Run M l σ0 .fault := by
  induction l with
  | nil => intro f s σ0 _ _ h; cases h
  | cons a l ih =>
    intro f s σ0 hd h hrun
    have h1 := body_req N M O G hO add1 σ l _ _ h
    have h2 := hO.reflect _ _ _ _ hd (hO.mergeReq _ _ _ h1).2
    obtain ⟨hf, hn⟩ := C101_partial N M O G hO hG a (hl a (by simp)) σ0 h2
    cases hrun with
    | next he hr =>
      exact ih (fun s hs => hl s (List.mem_cons_of_mem _ hs)) _ _ _
        (hO.mergeEns _ _ _ _ _ hd (hn _ he)) h hr
    | stop he _ => exact hf he

/-- further cases, none of which is run into, only add to the saved requirements -/
theorem sects_saved (N : Meaning C S) (M : Sem S A T) (O : Ops C) (G : Given C A T) (hO : Right N O)
    (add1 : C → List C) (σ : S) (ss : List (Sect C A T)) (hm : ∀ x ∈ ss, x.must = true) : ∀ s,
    ((∀ r ∈ (swItems O add1 false s (items O G ss)).savReq, N.holds r σ)
      ∧ ∀ r ∈ (swItems O add1 false s (items O G ss)).curReq, N.holds r σ) →
    (∀ r ∈ s.savReq, N.holds r σ) ∧ ∀ r ∈ s.curReq, N.holds r σ := by
  induction ss with
  | nil => intro s h; exact h
  | cons x ss ih =>
    intro s h
    have e : items O G (x :: ss) = (.case x.must x.eq :: x.body.map fun s => .stmt (gen O G s))
        ++ items O G ss := by simp [items]
    rw [e, swItems_append, Bool.false_and, swItems, hm x (by simp)] at h
    obtain ⟨h1, _⟩ := ih (fun y hy => hm y (List.mem_cons_of_mem _ hy)) _ h
    rw [body_saved] at h1
    exact hO.mergeReq _ _ _ h1

/-- the case entered is safe, if no later case is run into -/
theorem sects_safe (N : Meaning C S) (M : Sem S A T) (O : Ops C) (G : Given C A T) (hO : Right N O)
    (hG : Known N M G) (add1 : C → List C) (σ : S) (x : Sect C A T) (post : List (Sect C A T))
    (hx : ∀ s ∈ x.body, Tame M s) (hm : ∀ y ∈ post, y.must = true) (f : Bool) (s : SwSt C)
    (hc : (swItem O add1 f s (.case x.must x.eq)).curEns = add1 x.eq)
    (hd : N.desc (add1 x.eq) σ σ)
    (h : (∀ r ∈ (swItems O add1 f s (items O G (x :: post))).savReq, N.holds r σ)
      ∧ ∀ r ∈ (swItems O add1 f s (items O G (x :: post))).curReq, N.holds r σ) :
    ¬ Run M x.body σ .fault := by
  have e : items O G (x :: post) = (.case x.must x.eq :: x.body.map fun s => .stmt (gen O G s))
      ++ items O G post := by simp [items]
  rw [e, swItems_append, List.isEmpty_cons, Bool.and_false, swItems] at h
  obtain ⟨_, h2⟩ := sects_saved N M O G hO add1 σ post hm _ h
  refine body_safe N M O G hO hG add1 σ x.body hx _ _ σ ?_ h2
  rw [hc]
  exact hd

theorem run_append (M : Sem S A T) (l k : List (Stmt A T)) : ∀ σ o, Run M (l ++ k) σ o →
    Run M l σ o ∨ ∃ σ', Run M l σ (.norm σ') ∧ Run M k σ' o := by
  induction l with
  | nil => intro σ o h; exact Or.inr ⟨σ, .nil, h⟩
  | cons s l ih =>
    intro σ o h
    cases h with
    | next he hr =>
      rcases ih _ _ hr with h | ⟨σ', h1, h2⟩
      · exact Or.inl (.next he h)
      · exact Or.inr ⟨σ', .next he h1, h2⟩
    | stop he hn => exact Or.inl (.stop he hn)

theorem sects_all (N : Meaning C S) (M : Sem S A T) (O : Ops C) (G : Given C A T) (hO : Right N O)
    (hG : Known N M G) (add1 : C → List C) (σ : S) (ss : List (Sect C A T))
    (hT : ∀ x ∈ ss, ∀ s ∈ x.body, Tame M s) (hm : ∀ y ∈ ss, y.must = true) : ∀ s,
    ((∀ r ∈ (swItems O add1 false s (items O G ss)).savReq, N.holds r σ)
      ∧ ∀ r ∈ (swItems O add1 false s (items O G ss)).curReq, N.holds r σ) →
    ∀ pre x post, ss = pre ++ x :: post → N.desc (add1 x.eq) σ σ → ¬ Run M x.body σ .fault := by
  induction ss with
  | nil => intro s _ pre x post h; simp at h
  | cons y ss ih =>
    intro s h pre x post hss hd
    cases pre with
    | nil =>
      obtain ⟨rfl, rfl⟩ := List.cons.inj hss
      refine sects_safe N M O G hO hG add1 σ y ss (hT y (by simp))
        (fun z hz => hm z (List.mem_cons_of_mem _ hz)) false s ?_ hd h
      rw [hm y (by simp)]
      rfl
    | cons p pre =>
      have hss' := (List.cons.inj hss).2
      have e : items O G (y :: ss) = (.case y.must y.eq :: y.body.map fun s => .stmt (gen O G s))
          ++ items O G ss := by simp [items]
      rw [e, swItems_append, List.isEmpty_cons, Bool.and_false] at h
      exact ih (fun x hx => hT x (List.mem_cons_of_mem _ hx))
        (fun z hz => hm z (List.mem_cons_of_mem _ hz)) _ h pre x post hss' hd

/-- Missing for `C102_full`: cases that are run into, and statements that C101 does not cover. -/
theorem C102_partial (N : Meaning C S) (M : Sem S A T) (O : Ops C) (G : Given C A T) (hO : Right N O)
    (hG : Known N M G) (add1 : C → List C) (e : Ann C) (y : Sect C A T) (ss : List (Sect C A T))
    (hT : ∀ x ∈ y :: ss, ∀ s ∈ x.body, Tame M s) (hy : y.must = false) (hm : ∀ x ∈ ss, x.must = true)
    (ht : Truthful M (y :: ss)) : SwSound N M O G add1 e (y :: ss) := by
  intro σ hr pre x post hss hd hrun
  have hr := hO.mergeReq _ _ _ hr
  -- the case itself is safe
  have hx : ¬ Run M x.body σ .fault := by
    cases pre with
    | nil =>
      obtain ⟨rfl, rfl⟩ := List.cons.inj hss
      refine sects_safe N M O G hO hG add1 σ y ss (hT y (by simp)) hm true {} ?_ hd hr
      rw [hy]
      rfl
    | cons p pre =>
      have hss' := (List.cons.inj hss).2
      have e : items O G (y :: ss) = (.case y.must y.eq :: y.body.map fun s => .stmt (gen O G s))
          ++ items O G ss := by simp [items]
      rw [e, swItems_append, List.isEmpty_cons, Bool.and_false] at hr
      exact sects_all N M O G hO hG add1 σ ss (fun x hx => hT x (List.mem_cons_of_mem _ hx)) hm _ hr
        pre x post hss' hd
  -- and the next one is not run into
  rcases run_append M _ _ _ _ hrun with h | ⟨σ', h1, h2⟩
  · exact hx h
  · cases post with
    | nil => cases h2
    | cons z post =>
      have hz : z.must = true := by
        cases pre with
        | nil =>
          obtain ⟨rfl, rfl⟩ := List.cons.inj hss
          exact hm z (by simp)
        | cons p pre =>
          have hss' := (List.cons.inj hss).2
          exact hm z (by rw [hss']; simp)
      have key : ∀ (pre : List (Sect C A T)) (l : List (Sect C A T)), l = pre ++ x :: z :: post →
          Truthful M l → ∀ σ σ', ¬ Run M x.body σ (.norm σ') := by
        intro pre
        induction pre with
        | nil =>
          rintro l rfl hl
          exact hl.1 hz
        | cons p pre ih =>
          intro l hl ht
          cases pre with
          | nil =>
            subst hl
            exact ht.2.1 hz
          | cons q pre =>
            subst hl
            exact ih _ rfl ht.2
      exact key pre _ hss ht _ _ h1

/-- `case 0: use 5; break; case 1: use 7; break;` requires 7 elements and 5 elements, and meets the
conditions. -/
example :
    let ss : List (Sect Toy Act Tst) := [⟨false, .need 0, [.act (.use 5), .brk]⟩,
      ⟨true, .need 0, [.act (.use 7), .brk]⟩]
    (genSwitch toyOps (fun _ => []) ⟨[], []⟩ (items toyOps toyGiven ss)).req = [.need 5, .need 7]
    ∧ Truthful toySem ss := by
  refine ⟨by decide, ?_, trivial⟩
  intro _ σ σ' h
  cases h with
  | next h1 h2 =>
    cases h2 with
    | next h3 _ => cases h3
    | stop h3 hn => exact absurd trivial hn
  | stop _ hn => exact absurd trivial hn

end Splint.StmtGen
