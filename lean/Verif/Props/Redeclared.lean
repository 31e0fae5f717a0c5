import Verif.Tactics
import Verif.Spec.Redeclared
/-!
# C130: repeated declarations of functions
-/
namespace Splint
namespace Redeclared

/-! ### History -/

theorem first_snoc (h : List (D × Bool)) (p : D × Bool) (x : Nat) (d : D) :
    First (h ++ [p]) x d ↔ First h x d ∨ ((∀ q ∈ h, q.1.name ≠ x) ∧ p.1 = d ∧ d.name = x) := by
  constructor
  · rintro ⟨pre, b, post, h1, h2, h3⟩
    rcases List.eq_nil_or_concat post with rfl | ⟨post', q, rfl⟩
    · have := List.append_inj' h1 rfl
      obtain ⟨rfl, h4⟩ := this
      have : p = (d, b) := by simpa using h4
      exact Or.inr ⟨h3, by rw [this], h2⟩
    · rw [List.concat_eq_append, ← List.cons_append, ← List.append_assoc] at h1
      have := List.append_inj' h1 rfl
      exact Or.inl ⟨pre, b, post', this.1, h2, h3⟩
  · rintro (⟨pre, b, post, h1, h2, h3⟩ | ⟨h1, rfl, h3⟩)
    · exact ⟨pre, b, post ++ [p], by rw [h1]; simp, h2, h3⟩
    · exact ⟨h, p.2, [], by simp, h3, h1⟩

theorem first_unique {h : List (D × Bool)} {x : Nat} {d d' : D} (h1 : First h x d) (h2 : First h x d') : d = d' := by
  obtain ⟨pre, b, post, rfl, hn, hp⟩ := h1
  obtain ⟨pre', b', post', he, hn', hp'⟩ := h2
  rcases List.append_eq_append_iff.1 he with ⟨l, h1, h2⟩ | ⟨l, h1, h2⟩
  · cases l with
    | nil => simp at h2; exact h2.1.1
    | cons a l =>
      simp only [List.cons_append, List.cons.injEq] at h2
      exfalso
      refine hp' (d, b) ?_ hn
      rw [h1, h2.1]; simp
  · cases l with
    | nil => simp at h2; exact h2.1.1.symm
    | cons a l =>
      simp only [List.cons_append, List.cons.injEq] at h2
      exfalso
      refine hp (d', b') ?_ hn'
      rw [h1, h2.1]; simp

theorem first_or_none (h : List (D × Bool)) (x : Nat) : (∃ d, First h x d) ∨ ∀ q ∈ h, q.1.name ≠ x := by
  induction h with
  | nil => exact Or.inr (by simp)
  | cons p h ih =>
    by_cases hp : p.1.name = x
    · exact Or.inl ⟨p.1, [], p.2, h, rfl, hp, by simp⟩
    · rcases ih with ⟨d, pre, b, post, rfl, h2, h3⟩ | ih
      · refine Or.inl ⟨d, p :: pre, b, post, rfl, h2, ?_⟩
        intro q hq
        rcases List.mem_cons.1 hq with rfl | hq
        · exact hp
        · exact h3 q hq
      · refine Or.inr ?_
        intro q hq
        rcases List.mem_cons.1 hq with rfl | hq
        · exact hp
        · exact ih q hq

theorem first_mem {h : List (D × Bool)} {x : Nat} {d : D} (h1 : First h x d) : ∃ b, (d, b) ∈ h := by
  obtain ⟨pre, b, post, rfl, -⟩ := h1
  exact ⟨b, by simp⟩

theorem defined_snoc (h : List (D × Bool)) (p : D × Bool) (x : Nat) :
    Defined (h ++ [p]) x ↔ Defined h x ∨ (p.1.name = x ∧ p.2 = true) := by
  unfold Defined
  constructor
  · rintro ⟨q, hq, h1⟩
    rcases List.mem_append.1 hq with hq | hq
    · exact Or.inl ⟨q, hq, h1⟩
    · rw [List.mem_singleton.1 hq] at h1; exact Or.inr h1
  · rintro (⟨q, hq, h1⟩ | h1)
    · exact ⟨q, by simp [hq], h1⟩
    · exact ⟨p, by simp, h1⟩

/-- The tables say what the history says. -/
def Inv (st : State) (h : List (D × Bool)) : Prop :=
  (∀ p ∈ h, p.1.sc ≠ .static_) ∧ (∀ x, st.file x = none) ∧
  ∀ x, (st.glob x = none → ∀ q ∈ h, q.1.name ≠ x) ∧
    ∀ e, st.glob x = some e → ∃ d, First h x d ∧ e.declared = d.loc ∧ e.sc = d.sc ∧ (e.defined = true ↔ Defined h x)

theorem inv_start : Inv start [] :=
  ⟨by simp, fun _ => rfl, fun x => ⟨fun _ => by simp, fun e h => by cases h⟩⟩

/-- What a declarator is reported for. -/
def BadRedef (h : List (D × Bool)) (d : D) : Prop :=
  d.sc = .none_ ∧ Defined h d.name ∧ ∃ d0, First h d.name d0 ∧ d0.sc = .none_ ∧ d0.loc ≠ d.loc

open Classical in
theorem sup_spec (top : Bool) (st : State) (h : List (D × Bool)) (d : D) (hi : Inv st h) (hd : d.sc ≠ .static_) :
    (sup top st d).1 = (if BadRedef h d then [.redef d.name d.loc] else []) ∧
    (sup top st d).2.1.pos = (if Repeats h d then some (d.name, false, d.loc) else st.pos) ∧
    (sup top st d).2.2 = false ∧
    Inv (sup top st d).2.1 (h ++ [(d, false)]) := by
  obtain ⟨hs, hf, hg⟩ := hi
  have hd' : (d.sc == .static_) = false := by simpa using hd
  have hout : (if (top && d.sc != SC.static_) = true then
      match st.file d.name with
      | some _ => ([Report.shadow d.name d.loc], ({ st with file := set st.file d.name none } : State))
      | none => ([], st)
    else ([], st)) = ([], st) := by
    rw [hf]; split <;> rfl
  unfold sup
  simp only [hout, hd', Bool.false_eq_true, if_false, hf, ite_self, List.nil_append]
  have hstat : ∀ p ∈ h ++ [(d, false)], p.1.sc ≠ .static_ := by
    intro p hp
    rcases List.mem_append.1 hp with hp | hp
    · exact hs p hp
    · rw [List.mem_singleton.1 hp]; exact hd
  cases hgl : st.glob d.name with
  | none =>
    have hno := (hg d.name).1 hgl
    have hnf : ∀ d0, ¬ First h d.name d0 := by
      rintro d0 ⟨pre, b, post, rfl, h2, -⟩
      exact hno (d0, b) (by simp) h2
    have h1 : ¬ BadRedef h d := fun ⟨_, _, d0, h0, _⟩ => hnf d0 h0
    have h2 : ¬ Repeats h d := fun ⟨d0, h0, _⟩ => hnf d0 h0
    simp only [if_neg h1, if_neg h2, true_and]
    refine ⟨hstat, hf, fun x => ⟨?_, ?_⟩⟩
    · intro hx q hq
      simp only [set] at hx
      by_cases hxd : x = d.name
      · rw [if_pos hxd] at hx; cases hx
      · rw [if_neg hxd] at hx
        rcases List.mem_append.1 hq with hq | hq
        · exact (hg x).1 hx q hq
        · rw [List.mem_singleton.1 hq]; exact fun h => hxd h.symm
    · intro e he
      simp only [set] at he
      by_cases hxd : x = d.name
      · rw [if_pos hxd] at he
        cases he
        subst hxd
        refine ⟨d, (first_snoc _ _ _ _).2 (Or.inr ⟨hno, rfl, rfl⟩), rfl, rfl, ?_⟩
        rw [defined_snoc]
        simp only [fresh, Bool.false_eq_true, false_iff, and_false, or_false]
        rintro ⟨q, hq, h1, -⟩
        exact hno q hq h1
      · rw [if_neg hxd] at he
        obtain ⟨d0, a1, a2, a3, a4⟩ := (hg x).2 e he
        refine ⟨d0, (first_snoc _ _ _ _).2 (Or.inl a1), a2, a3, ?_⟩
        rw [defined_snoc, a4]
        simp
  | some e =>
    obtain ⟨d0, a1, a2, a3, a4⟩ := (hg d.name).2 e hgl
    have hs0 : d0.sc ≠ .static_ := by
      obtain ⟨b, hb⟩ := first_mem a1
      exact hs _ hb
    have hrep : Repeats h d ↔ e.declared ≠ d.loc := by
      constructor
      · rintro ⟨d1, b1, b2⟩; rw [a2, first_unique a1 b1]; exact b2
      · intro hne; exact ⟨d0, a1, by rw [← a2]; exact hne⟩
    have hbad : BadRedef h d ↔ d.sc = .none_ ∧ e.defined = true ∧ e.sc = .none_ ∧ e.declared ≠ d.loc := by
      constructor
      · rintro ⟨b1, b2, d1, b3, b4, b5⟩
        have := first_unique a1 b3
        subst this
        exact ⟨b1, a4.2 b2, by rw [a3]; exact b4, by rw [a2]; exact b5⟩
      · rintro ⟨b1, b2, b3, b4⟩
        exact ⟨b1, a4.1 b2, d0, a1, by rw [← a3]; exact b3, by rw [← a2]; exact b4⟩
    refine ⟨?_, ?_, rfl, hstat, hf, fun x => ⟨?_, ?_⟩⟩
    · simp only [hbad]
      unfold mergeReports
      rw [← a3] at hs0
      cases he : e.sc with
      | static_ => exact absurd he hs0
      | extern_ => simp
      | none_ =>
        cases hds : d.sc with
        | static_ => exact absurd hds hd
        | extern_ => simp
        | none_ =>
          cases hdef : e.defined <;> by_cases hl : e.declared = d.loc <;> simp [hl]
    · simp only [hrep]
      unfold mergePos
      by_cases hl : e.declared = d.loc <;> simp [hl]
    · intro hx q hq
      rcases List.mem_append.1 hq with hq | hq
      · exact (hg x).1 hx q hq
      · rw [List.mem_singleton.1 hq]
        intro hxd
        simp only at hxd hx
        rw [← hxd, hgl] at hx
        cases hx
    · intro e' he'
      obtain ⟨d1, b1, b2, b3, b4⟩ := (hg x).2 e' he'
      refine ⟨d1, (first_snoc _ _ _ _).2 (Or.inl b1), b2, b3, ?_⟩
      rw [defined_snoc, b4]
      simp

theorem setDefined_inv (st : State) (h : List (D × Bool)) (d : D) (hi : Inv st (h ++ [(d, false)])) :
    Inv (setDefined st d.name false) (h ++ [(d, true)]) := by
  obtain ⟨hs, hf, hg⟩ := hi
  have hfst : ∀ x d0, First (h ++ [(d, false)]) x d0 ↔ First (h ++ [(d, true)]) x d0 := by
    intro x d0; rw [first_snoc, first_snoc]
  have hname : ∀ x, (∀ q ∈ h ++ [(d, false)], q.1.name ≠ x) ↔ ∀ q ∈ h ++ [(d, true)], q.1.name ≠ x := by
    intro x; simp [or_imp, forall_and]
  refine ⟨?_, hf, fun x => ⟨?_, ?_⟩⟩
  · intro p hp
    rcases List.mem_append.1 hp with hp | hp
    · exact hs p (by simp [hp])
    · rw [List.mem_singleton.1 hp]; exact hs (d, false) (by simp)
  · intro hx
    simp only [setDefined, Bool.false_eq_true, if_false, set] at hx
    rw [← hname]
    apply (hg x).1
    by_cases hxd : x = d.name
    · rw [if_pos hxd] at hx
      rw [hxd]
      simpa using hx
    · rw [if_neg hxd] at hx; exact hx
  · intro e he
    simp only [setDefined, Bool.false_eq_true, if_false, set] at he
    by_cases hxd : x = d.name
    · rw [if_pos hxd] at he
      rw [Option.map_eq_some_iff] at he
      obtain ⟨e0, h0, rfl⟩ := he
      obtain ⟨d0, a1, a2, a3, -⟩ := (hg d.name).2 e0 h0
      subst hxd
      refine ⟨d0, (hfst _ _).1 a1, a2, a3, ?_⟩
      rw [defined_snoc]
      simp
    · rw [if_neg hxd] at he
      obtain ⟨d0, a1, a2, a3, a4⟩ := (hg x).2 e he
      refine ⟨d0, (hfst _ _).1 a1, a2, a3, ?_⟩
      rw [a4, defined_snoc, defined_snoc]
      simp only [Bool.false_eq_true, and_false, or_false, and_true]
      constructor
      · exact Or.inl
      · rintro (h | h)
        · exact h
        · exact absurd h.symm hxd

theorem inv_pos {st : State} {h : List (D × Bool)} (p : Option (Nat × Bool × Nat)) (hi : Inv st h) :
    Inv { st with pos := p } h := hi

theorem sups_spec : ∀ (ds : List D) (st : State) (h : List (D × Bool)), Inv st h → (∀ d ∈ ds, d.sc ≠ .static_) →
    Inv (sups st ds).2 (h ++ ds.map fun d => (d, false)) ∧
    (∀ r, r ∈ (sups st ds).1 ↔ ∃ u d v, ds = u ++ d :: v ∧ r = .redef d.name d.loc ∧
      BadRedef (h ++ u.map fun e => (e, false)) d) ∧
    (∀ d, LastRepeat h ds d → (sups st ds).2.pos = some (d.name, false, d.loc)) ∧
    ((¬ ∃ d, LastRepeat h ds d) → (sups st ds).2.pos = st.pos)
  | [], st, h, hi, _ => by
    refine ⟨by simpa [sups] using hi, by simp [sups], ?_, fun _ => rfl⟩
    rintro d ⟨u, v, h1, -⟩
    simp at h1
  | d :: ds, st, h, hi, hs => by
    obtain ⟨s1, s2, -, s4⟩ := sup_spec true st h d hi (hs d (by simp))
    obtain ⟨t1, t2, t3, t4⟩ := sups_spec ds (sup true st d).2.1 (h ++ [(d, false)]) s4 (fun e he => hs e (by simp [he]))
    unfold sups
    simp only
    have hcons : ∀ (u : List D), h ++ (d :: u).map (fun e => (e, false)) =
        (h ++ [(d, false)]) ++ u.map fun e => (e, false) := by intro u; simp
    refine ⟨by rw [hcons]; exact t1, ?_, ?_, ?_⟩
    · intro r
      rw [List.mem_append, t2, s1]
      constructor
      · rintro (hr | ⟨u, d', v, h1, h2, h3⟩)
        · by_cases hb : BadRedef h d
          · rw [if_pos hb, List.mem_singleton] at hr
            exact ⟨[], d, ds, rfl, hr, by simpa using hb⟩
          · rw [if_neg hb] at hr; cases hr
        · exact ⟨d :: u, d', v, by rw [h1]; rfl, h2, by rw [hcons]; exact h3⟩
      · rintro ⟨u, d', v, h1, h2, h3⟩
        cases u with
        | nil =>
          simp only [List.nil_append, List.cons.injEq] at h1
          obtain ⟨rfl, rfl⟩ := h1
          have hb : BadRedef h d := by simpa using h3
          exact Or.inl (by rw [if_pos hb, h2]; simp)
        | cons a u =>
          simp only [List.cons_append, List.cons.injEq] at h1
          obtain ⟨rfl, h1⟩ := h1
          exact Or.inr ⟨u, d', v, h1, h2, by rw [hcons] at h3; exact h3⟩
    · rintro d' ⟨u, v, h1, h2, h3⟩
      cases u with
      | nil =>
        simp only [List.nil_append, List.cons.injEq] at h1
        obtain ⟨rfl, rfl⟩ := h1
        have hr : Repeats h d := by simpa using h2
        rw [t4, s2, if_pos hr]
        rintro ⟨e, u', v', h1', h2', -⟩
        refine h3 u' e v' h1' ?_
        rw [List.nil_append, hcons]
        exact h2'
      | cons a u =>
        simp only [List.cons_append, List.cons.injEq] at h1
        obtain ⟨rfl, h1⟩ := h1
        apply t3
        refine ⟨u, v, h1, by rw [hcons] at h2; exact h2, ?_⟩
        intro v1 e v2 hv
        have := h3 v1 e v2 hv
        rw [List.cons_append, hcons] at this
        exact this
    · intro hno
      have hr : ¬ Repeats h d := by
        intro hr
        by_cases hl : ∃ e, LastRepeat (h ++ [(d, false)]) ds e
        · obtain ⟨e, u, v, h1, h2, h3⟩ := hl
          refine hno ⟨e, d :: u, v, by rw [h1]; rfl, by rw [hcons]; exact h2, ?_⟩
          intro v1 e' v2 hv
          rw [List.cons_append, hcons]
          exact h3 v1 e' v2 hv
        · refine hno ⟨d, [], ds, rfl, by simpa using hr, ?_⟩
          intro v1 e v2 hv hre
          have key : ∀ n (v1 : List D) e v2, v2.length = n → ds = v1 ++ e :: v2 →
              Repeats (h ++ [(d, false)] ++ v1.map fun e => (e, false)) e →
              ∃ e, LastRepeat (h ++ [(d, false)]) ds e := by
            intro n
            induction n using Nat.strong_induction_on with
            | _ n ih =>
              intro v1 e v2 hn hv hre
              by_cases hx : ∃ w1 e' w2, v2 = w1 ++ e' :: w2 ∧
                  Repeats (h ++ [(d, false)] ++ (v1 ++ e :: w1).map fun e => (e, false)) e'
              · obtain ⟨w1, e', w2, hw, hre'⟩ := hx
                refine ih w2.length ?_ (v1 ++ e :: w1) e' w2 rfl ?_ hre'
                · rw [← hn, hw]; simp only [List.length_append, List.length_cons]; omega
                · rw [hv, hw]; simp
              · exact ⟨e, v1, v2, hv, hre, fun w1 e' w2 hw hre' => hx ⟨w1, e', w2, hw, hre'⟩⟩
          apply hl
          refine key _ v1 e v2 rfl hv ?_
          rw [List.nil_append, hcons] at hre
          exact hre
      rw [t4, s2, if_neg hr]
      rintro ⟨e, u, v, h1, h2, h3⟩
      refine hno ⟨e, d :: u, v, by rw [h1]; rfl, by rw [hcons]; exact h2, ?_⟩
      intro v1 e' v2 hv
      rw [List.cons_append, hcons]
      exact h3 v1 e' v2 hv

/-! ### Steps -/

/-- What a report of an item says, given the declarators before it. -/
def Says (xh : Nat → Bool) (h : List (D × Bool)) : Item → Report → Prop
  | .decls ds, r =>
    (∃ u d v, ds = u ++ d :: v ∧ r = .redef d.name d.loc ∧ BadRedef (h ++ u.map fun e => (e, false)) d) ∨
    ∃ d b, LastRepeat h ds d ∧ xh d.loc = false ∧ r = .redecl d.name d.loc b ∧ (b = true ↔ Defined h d.name)
  | .defn d, r => r = .redef d.name d.loc ∧ BadRedef h d
  | .other, _ => False
  | .newFile, _ => False

theorem defined_map (h : List (D × Bool)) (ds : List D) (x : Nat) :
    Defined (h ++ ds.map fun e => (e, false)) x ↔ Defined h x := by
  unfold Defined
  constructor
  · rintro ⟨q, hq, h1, h2⟩
    rcases List.mem_append.1 hq with hq | hq
    · exact ⟨q, hq, h1, h2⟩
    · obtain ⟨e, -, rfl⟩ := List.mem_map.1 hq
      cases h2
  · rintro ⟨q, hq, h1⟩
    exact ⟨q, by simp [hq], h1⟩

theorem step_spec (xh : Nat → Bool) (st : State) (h : List (D × Bool)) (i : Item) (hi : Inv st h) (hp : st.pos = none)
    (hs : ∀ p ∈ flatItem i, p.1.sc ≠ .static_) :
    Inv (step xh st i).2 (h ++ flatItem i) ∧ (step xh st i).2.pos = none ∧
    ∀ r, r ∈ (step xh st i).1 ↔ Says xh h i r := by
  cases i with
  | decls ds =>
    obtain ⟨t1, t2, t3, t4⟩ := sups_spec ds st h hi (fun d hd => hs (d, false) (by simp [flatItem, hd]))
    simp only [step, flatItem]
    by_cases hl : ∃ d, LastRepeat h ds d
    · obtain ⟨d, hd⟩ := hl
      have hpos := t3 d hd
      obtain ⟨u, v, hds, hrep, -⟩ := id hd
      have huniq : ∀ d', LastRepeat h ds d' → d'.name = d.name ∧ d'.loc = d.loc := by
        intro d' hd'
        have := t3 d' hd'
        rw [hpos] at this
        simp only [Option.some.injEq, Prod.mk.injEq, true_and] at this
        exact ⟨this.1.symm, this.2.symm⟩
      obtain ⟨e, he⟩ : ∃ e, (sups st ds).2.glob d.name = some e := by
        cases hg : (sups st ds).2.glob d.name with
        | some e => exact ⟨e, rfl⟩
        | none => exact absurd rfl ((t1.2.2 d.name).1 hg (d, false) (by rw [hds]; simp))
      obtain ⟨-, -, -, -, hdef⟩ := (t1.2.2 d.name).2 e he
      rw [defined_map] at hdef
      have hc : checkDecl xh (sups st ds).2 =
          (if xh d.loc then [] else [.redecl d.name d.loc e.defined], { (sups st ds).2 with pos := none }) := by
        unfold checkDecl
        rw [hpos]
        simp only [Bool.false_eq_true, if_false, he]
      rw [hc]
      refine ⟨inv_pos none t1, rfl, fun r => ?_⟩
      rw [List.mem_append, t2]
      refine or_congr Iff.rfl ?_
      constructor
      · intro hr
        cases hx : xh d.loc with
        | true => simp [hx] at hr
        | false =>
          simp only [hx, Bool.false_eq_true, if_false, List.mem_singleton] at hr
          exact ⟨d, e.defined, hd, hx, hr, hdef⟩
      · rintro ⟨d', b, h1, h2, h3, h4⟩
        obtain ⟨hn, hl⟩ := huniq d' h1
        rw [hl] at h2
        rw [hn, hl] at h3
        rw [hn] at h4
        have : b = e.defined := Bool.eq_iff_iff.2 (h4.trans hdef.symm)
        simp [h2, h3, this]
    · have hpos := t4 hl
      rw [hp] at hpos
      have hc : checkDecl xh (sups st ds).2 = ([], (sups st ds).2) := by unfold checkDecl; rw [hpos]
      rw [hc]
      refine ⟨t1, hpos, fun r => ?_⟩
      rw [List.append_nil, t2]
      constructor
      · exact Or.inl
      · rintro (h | ⟨d, -, h, -⟩)
        · exact h
        · exact absurd ⟨d, h⟩ hl
  | defn d =>
    obtain ⟨s1, -, s3, s4⟩ := sup_spec false st h d hi (hs (d, true) (by simp [flatItem]))
    simp only [step, flatItem, s3]
    refine ⟨inv_pos none (setDefined_inv _ h d s4), trivial, fun r => ?_⟩
    rw [s1]
    by_cases hb : BadRedef h d <;> simp [Says, hb]
  | other => exact ⟨by simpa [flatItem, step] using inv_pos none hi, rfl, fun r => by simp [step, Says]⟩
  | newFile =>
    refine ⟨?_, hp, fun r => by simp [step, Says]⟩
    simp only [flatItem, List.append_nil, step]
    exact ⟨hi.1, fun _ => rfl, hi.2.2⟩

theorem run_spec (xh : Nat → Bool) : ∀ (is : List Item) (st : State) (h : List (D × Bool)), Inv st h → st.pos = none →
    (∀ p ∈ flat is, p.1.sc ≠ .static_) →
    ∀ r, r ∈ (run xh st is).1 ↔ ∃ pre i post, is = pre ++ i :: post ∧ Says xh (h ++ flat pre) i r
  | [], _, _, _, _, _ => fun r => by simp [run]
  | i :: is, st, h, hi, hp, hs => fun r => by
    have hs1 : ∀ p ∈ flatItem i, p.1.sc ≠ .static_ := fun p hp => hs p (by simp [flat] at hp ⊢; exact Or.inl hp)
    have hs2 : ∀ p ∈ flat is, p.1.sc ≠ .static_ := fun p hp => hs p (by simp only [flat, List.flatMap_cons, List.mem_append] at hp ⊢; exact Or.inr hp)
    obtain ⟨s1, s2, s3⟩ := step_spec xh st h i hi hp hs1
    have ih := run_spec xh is (step xh st i).2 (h ++ flatItem i) s1 s2 hs2 r
    have hcons : ∀ pre, h ++ flat (i :: pre) = h ++ flatItem i ++ flat pre := by intro pre; simp [flat]
    simp only [run, List.mem_append, s3, ih]
    constructor
    · rintro (h1 | ⟨pre, j, post, h1, h2⟩)
      · exact ⟨[], i, is, rfl, by simpa [flat] using h1⟩
      · exact ⟨i :: pre, j, post, by rw [h1]; rfl, by rw [hcons]; exact h2⟩
    · rintro ⟨pre, j, post, h1, h2⟩
      cases pre with
      | nil =>
        simp only [List.nil_append, List.cons.injEq] at h1
        obtain ⟨rfl, rfl⟩ := h1
        exact Or.inl (by simpa [flat] using h2)
      | cons a pre =>
        simp only [List.cons_append, List.cons.injEq] at h1
        obtain ⟨rfl, h1⟩ := h1
        exact Or.inr ⟨pre, j, post, h1, by rw [hcons] at h2; exact h2⟩

/-! ### The messages -/

theorem item_of_flat : ∀ (is : List Item) (h1 h2 : List (D × Bool)) (p : D × Bool), flat is = h1 ++ p :: h2 →
    ∃ pre i post u v, is = pre ++ i :: post ∧ flatItem i = u ++ p :: v ∧ h1 = flat pre ++ u
  | [], h1, h2, p, h => by simp [flat] at h
  | i :: is, h1, h2, p, h => by
    have hf : flat (i :: is) = flatItem i ++ flat is := by simp [flat]
    rw [hf] at h
    rcases List.append_eq_append_iff.1 h with ⟨l, ha, hb⟩ | ⟨l, ha, hb⟩
    · obtain ⟨pre, j, post, u, v, a1, a2, a3⟩ := item_of_flat is l h2 p hb
      exact ⟨i :: pre, j, post, u, v, by rw [a1]; rfl, a2, by rw [ha, a3]; simp [flat]⟩
    · cases l with
      | nil =>
        simp only [List.nil_append] at hb
        obtain ⟨pre, j, post, u, v, a1, a2, a3⟩ := item_of_flat is [] h2 p hb.symm
        refine ⟨i :: pre, j, post, u, v, by rw [a1]; rfl, a2, ?_⟩
        rw [List.append_nil] at ha
        rw [← ha]
        simp only [flat, List.flatMap_cons, List.append_assoc]
        have : flat pre ++ u = [] := a3.symm
        simp only [flat] at this
        rw [this, List.append_nil]
      | cons a l =>
        simp only [List.cons_append, List.cons.injEq] at hb
        obtain ⟨rfl, hb⟩ := hb
        exact ⟨[], i, is, h1, l, rfl, ha, by simp [flat]⟩

/-- **C130**: without static declarations, "defined more than once" is said of exactly those declarators that are not
declared extern, at another place than the first declaration of the function, which was not declared extern either,
when there is a definition before - whether or not the declarator is a definition itself. -/
theorem C130_redef_exactly (xh : Nat → Bool) (is : List Item) (hs : NoStatic is) (x l : Nat) :
    Report.redef x l ∈ reports xh is ↔
      ∃ h1 d b h2 d0, flat is = h1 ++ (d, b) :: h2 ∧ d.name = x ∧ d.loc = l ∧ d.sc = .none_ ∧
        First h1 x d0 ∧ d0.sc = .none_ ∧ d0.loc ≠ l ∧ Defined h1 x := by
  unfold reports
  rw [run_spec xh is start [] inv_start rfl hs]
  constructor
  · rintro ⟨pre, i, post, rfl, h⟩
    cases i with
    | decls ds =>
      rcases h with ⟨u, d, v, rfl, hr, h1, h2, d0, h3, h4, h5⟩ | ⟨d, b, -, -, hr, -⟩
      · simp only [Report.redef.injEq] at hr
        obtain ⟨rfl, rfl⟩ := hr
        refine ⟨flat pre ++ u.map (fun e => (e, false)), d, false, v.map (fun e => (e, false)) ++ flat post, d0, ?_,
          rfl, rfl, h1, by simpa using h3, h4, h5, by simpa using h2⟩
        simp [flat, flatItem]
      · cases hr
    | defn d =>
      obtain ⟨hr, h1, h2, d0, h3, h4, h5⟩ := h
      simp only [Report.redef.injEq] at hr
      obtain ⟨rfl, rfl⟩ := hr
      exact ⟨flat pre, d, true, flat post, d0, by simp [flat, flatItem], rfl, rfl, h1, by simpa using h3, h4, h5,
        by simpa using h2⟩
    | other => exact h.elim
    | newFile => exact h.elim
  · rintro ⟨h1, d, b, h2, d0, he, rfl, rfl, a1, a2, a3, a4, a5⟩
    obtain ⟨pre, i, post, u, v, b1, b2, b3⟩ := item_of_flat is h1 h2 (d, b) he
    refine ⟨pre, i, post, b1, ?_⟩
    have hbad : BadRedef h1 d := ⟨a1, a5, d0, a2, a3, a4⟩
    cases i with
    | decls ds =>
      simp only [flatItem] at b2
      obtain ⟨u', v', hds, hu, hv⟩ := List.map_eq_append_iff.1 b2
      cases v' with
      | nil => simp at hv
      | cons d' v' =>
        simp only [List.map_cons, List.cons.injEq, Prod.mk.injEq] at hv
        obtain ⟨⟨rfl, -⟩, -⟩ := hv
        refine Or.inl ⟨u', d', v', hds, rfl, ?_⟩
        rw [hu, List.nil_append, ← b3]
        exact hbad
    | defn d' =>
      simp only [flatItem] at b2
      cases u with
      | nil =>
        simp only [List.nil_append, List.cons.injEq, Prod.mk.injEq] at b2
        obtain ⟨⟨rfl, -⟩, -⟩ := b2
        refine ⟨rfl, ?_⟩
        rw [List.append_nil] at b3
        rw [List.nil_append, ← b3]
        exact hbad
      | cons a u => simp at b2
    | other => simp [flatItem] at b2
    | newFile => simp [flatItem] at b2

/-- **C130**: without static declarations, a redeclaration is reported for exactly the last declarator of a
declaration that is at another place than the first declaration of the function, unless that is in an `.xh` file;
it says whether there is a definition before. -/
theorem C130_redecl_exactly (xh : Nat → Bool) (is : List Item) (hs : NoStatic is) (x l : Nat) (b : Bool) :
    Report.redecl x l b ∈ reports xh is ↔
      ∃ pre ds post d, is = pre ++ .decls ds :: post ∧ LastRepeat (flat pre) ds d ∧ d.name = x ∧ d.loc = l ∧
        xh l = false ∧ (b = true ↔ Defined (flat pre) x) := by
  unfold reports
  rw [run_spec xh is start [] inv_start rfl hs]
  constructor
  · rintro ⟨pre, i, post, rfl, h⟩
    cases i with
    | decls ds =>
      rcases h with ⟨u, d, v, -, hr, -⟩ | ⟨d, b', h1, h2, hr, h3⟩
      · cases hr
      · simp only [Report.redecl.injEq] at hr
        obtain ⟨rfl, rfl, rfl⟩ := hr
        exact ⟨pre, ds, post, d, rfl, by simpa using h1, rfl, rfl, h2, by simpa using h3⟩
    | defn d => cases h.1
    | other => exact h.elim
    | newFile => exact h.elim
  · rintro ⟨pre, ds, post, d, rfl, h1, rfl, rfl, h2, h3⟩
    exact ⟨pre, .decls ds, post, rfl, Or.inr ⟨d, b, by simpa using h1, h2, rfl, by simpa using h3⟩⟩

/-- No message about a static declaration without one. -/
theorem C130_no_shadow (xh : Nat → Bool) (is : List Item) (hs : NoStatic is) (x l : Nat) :
    Report.shadow x l ∉ reports xh is := by
  unfold reports
  rw [run_spec xh is start [] inv_start rfl hs]
  rintro ⟨pre, i, post, rfl, h⟩
  cases i with
  | decls ds =>
    rcases h with ⟨u, d, v, -, hr, -⟩ | ⟨d, b, -, -, hr, -⟩ <;> cases hr
  | defn d => cases h.1
  | other => exact h.elim
  | newFile => exact h.elim

/-! ### What should hold -/

/-- A function is reported to be defined more than once exactly where it is defined again. -/
def C130_full : Prop := ∀ (xh : Nat → Bool) (is : List Item), NoStatic is → ∀ x l,
  (Report.redef x l ∈ reports xh is ↔
    ∃ h1 d h2, flat is = h1 ++ (d, true) :: h2 ∧ d.name = x ∧ d.loc = l ∧ Defined h1 x)

instance (is : List Item) : Decidable (NoStatic is) := by unfold NoStatic; infer_instance

/-- A prototype after the definition is reported as a definition. -/
theorem C130_full_is_false : ¬ C130_full := by
  intro h
  have h1 := (h (fun _ => false) [.defn ⟨0, .none_, 1⟩, .decls [⟨0, .none_, 2⟩]] (by decide) 0 2).1 (by decide)
  obtain ⟨h1, d, h2, he, -, -, p, hp, -, -⟩ := h1
  simp only [flat, flatItem, List.flatMap_cons, List.flatMap_nil, List.map_cons, List.map_nil, List.append_nil,
    List.cons_append, List.nil_append] at he
  rcases h1 with _ | ⟨a, _ | ⟨a', h1⟩⟩
  · cases hp
  · simp at he
  · simp at he

/-- Once a function has been declared extern, no definition of it is reported as another one. -/
theorem C130_extern_hides (xh : Nat → Bool) (is : List Item) (hs : NoStatic is) (x : Nat) (d0 : D)
    (h0 : First (flat is) x d0) (he : d0.sc = .extern_) (l : Nat) : Report.redef x l ∉ reports xh is := by
  rw [C130_redef_exactly xh is hs]
  rintro ⟨h1, d, b, h2, d1, hf, -, -, -, ⟨pre, b1, post, rfl, a2, a3⟩, hn, -, -⟩
  have : First (flat is) x d1 := ⟨pre, b1, post ++ (d, b) :: h2, by rw [hf]; simp, a2, a3⟩
  rw [first_unique h0 this] at he
  rw [he] at hn
  cases hn

/-- Every prototype after a definition that is the first declaration, both without a storage class, is reported as
another definition. -/
theorem C130_prototype_after (xh : Nat → Bool) (is : List Item) (hs : NoStatic is) (h1 h2 : List (D × Bool)) (d d0 : D)
    (hf : flat is = h1 ++ (d, false) :: h2) (h0 : First h1 d.name d0) (hn0 : d0.sc = .none_) (hn : d.sc = .none_)
    (hl : d0.loc ≠ d.loc) (hdef : Defined h1 d.name) : Report.redef d.name d.loc ∈ reports xh is :=
  (C130_redef_exactly xh is hs _ _).2 ⟨h1, d, false, h2, d0, hf, rfl, rfl, hn, h0, hn0, hl, hdef⟩

/-- A program with one definition of each function at most, and no prototype after a definition, gets no such
message. -/
theorem C130_sound_partial (xh : Nat → Bool) (is : List Item) (hs : NoStatic is) (x : Nat)
    (h : ∀ h1 d b h2, flat is = h1 ++ (d, b) :: h2 → d.name = x → ¬ Defined h1 x) (l : Nat) :
    Report.redef x l ∉ reports xh is := by
  rw [C130_redef_exactly xh is hs]
  rintro ⟨h1, d, b, h2, -, hf, hx, -, -, -, -, -, hd⟩
  exact h h1 d b h2 hf hx hd

/-- A second definition is reported when no declaration of the function is extern and it is not at the place of the
first declaration. -/
theorem C130_complete_partial (xh : Nat → Bool) (is : List Item) (hs : NoStatic is) (h1 h2 : List (D × Bool)) (d : D)
    (hf : flat is = h1 ++ (d, true) :: h2) (hx : ∀ p ∈ flat is, p.1.name = d.name → p.1.sc = .none_)
    (hl : ∀ p ∈ h1, p.1.name = d.name → p.1.loc ≠ d.loc) (hd : Defined h1 d.name) :
    Report.redef d.name d.loc ∈ reports xh is := by
  rw [C130_redef_exactly xh is hs]
  rcases first_or_none h1 d.name with ⟨d0, h0⟩ | hno
  · obtain ⟨b, hb⟩ := first_mem h0
    have hn : d0.name = d.name := by obtain ⟨_, _, _, _, h, _⟩ := h0; exact h
    exact ⟨h1, d, true, h2, d0, hf, rfl, rfl, hx (d, true) (by rw [hf]; simp) rfl, h0,
      hx (d0, b) (by rw [hf]; simp [hb]) hn, hl _ hb hn, hd⟩
  · obtain ⟨q, hq, h3, -⟩ := hd
    exact absurd h3 (hno q hq)

/-! ### One report for a declaration -/

theorem checkDecl_le (xh : Nat → Bool) (st : State) : (checkDecl xh st).1.length ≤ 1 := by
  unfold checkDecl
  split
  · simp
  · dsimp only
    split <;> simp

def isRedecl : Report → Bool
  | .redecl .. => true
  | _ => false

theorem mergeReports_redecl (e : Ent) (d : D) : (mergeReports e d).filter isRedecl = [] := by
  unfold mergeReports
  cases e.sc <;> simp only <;> (try split_ifs) <;> rfl

theorem sup_redecl (top : Bool) (st : State) (d : D) : (sup top st d).1.filter isRedecl = [] := by
  unfold sup
  dsimp only
  have hout : ∀ (o : List Report × State), o = (if (top && d.sc != SC.static_) = true then
      match st.file d.name with
      | some _ => ([Report.shadow d.name d.loc], ({ st with file := set st.file d.name none } : State))
      | none => ([], st)
    else ([], st)) → o.1.filter isRedecl = [] := by
    rintro o rfl
    split
    · split <;> rfl
    · rfl
  generalize ho : (if (top && d.sc != SC.static_) = true then
      match st.file d.name with
      | some _ => ([Report.shadow d.name d.loc], ({ st with file := set st.file d.name none } : State))
      | none => ([], st)
    else ([], st)) = o
  have ho' := hout o ho.symm
  split
  · split <;> simp [ho', mergeReports_redecl]
  · split
    · simp [ho', mergeReports_redecl]
    · split <;> simp [ho', mergeReports_redecl]

theorem sups_redecl : ∀ (ds : List D) (st : State), (sups st ds).1.filter isRedecl = []
  | [], _ => rfl
  | d :: ds, st => by
    simp only [sups, List.filter_append, sup_redecl, sups_redecl ds, List.append_nil]

/-- However many functions a declaration declares again, with or without static, it gives one report of a
redeclaration at most. -/
theorem C130_one_per_declaration (xh : Nat → Bool) (st : State) (i : Item) :
    ((step xh st i).1.filter isRedecl).length ≤ 1 := by
  cases i with
  | decls ds =>
    simp only [step, List.filter_append, sups_redecl, List.nil_append]
    exact le_trans (List.length_filter_le _ _) (checkDecl_le _ _)
  | defn d => simp [step, sup_redecl]
  | other => simp [step]
  | newFile => simp [step]

/-! ### Static functions -/

def SInv (x : Nat) (st : State) : Prop := st.glob x = none ∧ ∀ e, st.file x = some e → e.sc = .static_

theorem sup_static (top : Bool) (x : Nat) (st : State) (d : D) (hi : SInv x st) (hd : d.name = x → d.sc = .static_) :
    SInv x (sup top st d).2.1 ∧ (∀ l, Report.redef x l ∉ (sup top st d).1) ∧
      (d.name = x → (sup top st d).2.2 = true) := by
  obtain ⟨hg, hf⟩ := hi
  by_cases hx : d.name = x
  · have hsc := hd hx
    unfold sup
    simp only [hsc, bne_self_eq_false, Bool.and_false, Bool.false_eq_true, if_false, beq_self_eq_true, if_true,
      List.nil_append]
    rw [hx]
    cases hfx : st.file x with
    | some e =>
      refine ⟨⟨hg, hf⟩, fun l hl => ?_, fun _ => rfl⟩
      simp [mergeReports, hf e hfx, hsc] at hl
    | none =>
      refine ⟨⟨hg, ?_⟩, by simp, fun _ => rfl⟩
      intro e he
      simp only [set, if_true, Option.some.injEq] at he
      rw [← he]
      exact hsc
  · have hm : ∀ e (d' : D), d'.name = d.name → ∀ l, Report.redef x l ∉ mergeReports e d' := by
      intro e d' hn l
      unfold mergeReports
      cases e.sc <;> simp only <;> (try split_ifs) <;> simp [hn] <;> intro h <;> exact absurd h.symm hx
    have hset : ∀ t e, set t d.name e x = t x := by
      intro t e
      simp only [set]
      rw [if_neg (fun h => hx h.symm)]
    unfold sup
    dsimp only
    have hout : ∀ (o : List Report × State), o = (if (top && d.sc != SC.static_) = true then
        match st.file d.name with
        | some _ => ([Report.shadow d.name d.loc], ({ st with file := set st.file d.name none } : State))
        | none => ([], st)
      else ([], st)) → SInv x o.2 ∧ ∀ l, Report.redef x l ∉ o.1 := by
      rintro o rfl
      split
      · split
        · exact ⟨⟨hg, by intro e he; simp only [hset] at he; exact hf e he⟩, by simp⟩
        · exact ⟨⟨hg, hf⟩, by simp⟩
      · exact ⟨⟨hg, hf⟩, by simp⟩
    generalize ho : (if (top && d.sc != SC.static_) = true then
        match st.file d.name with
        | some _ => ([Report.shadow d.name d.loc], ({ st with file := set st.file d.name none } : State))
        | none => ([], st)
      else ([], st)) = o
    obtain ⟨⟨og, of⟩, or⟩ := hout o ho.symm
    split
    · split
      · exact ⟨⟨og, of⟩, fun l h => (List.mem_append.1 h).elim (or l) (hm _ _ rfl l), fun h => absurd h hx⟩
      · exact ⟨⟨og, by intro e he; simp only [hset] at he; exact of e he⟩, or, fun h => absurd h hx⟩
    · split
      · exact ⟨⟨og, of⟩, fun l h => (List.mem_append.1 h).elim (or l) (hm _ _ rfl l), fun h => absurd h hx⟩
      · split
        · refine ⟨⟨og, of⟩, fun l h => (List.mem_append.1 h).elim (or l) (hm _ _ ?_ l), fun h => absurd h hx⟩
          rfl
        · exact ⟨⟨by simp only [hset]; exact og, of⟩, or, fun h => absurd h hx⟩

theorem sups_static (x : Nat) : ∀ (ds : List D) (st : State), SInv x st → (∀ d ∈ ds, d.name = x → d.sc = .static_) →
    SInv x (sups st ds).2 ∧ ∀ l, Report.redef x l ∉ (sups st ds).1
  | [], _, hi, _ => ⟨hi, by simp [sups]⟩
  | d :: ds, st, hi, hs => by
    obtain ⟨s1, s2, -⟩ := sup_static true x st d hi (hs d (by simp))
    obtain ⟨t1, t2⟩ := sups_static x ds _ s1 (fun e he => hs e (by simp [he]))
    refine ⟨t1, fun l h => ?_⟩
    simp only [sups, List.mem_append] at h
    exact h.elim (s2 l) (t2 l)

theorem step_static (xh : Nat → Bool) (x : Nat) (st : State) (i : Item) (hi : SInv x st)
    (hs : ∀ p ∈ flatItem i, p.1.name = x → p.1.sc = .static_) :
    SInv x (step xh st i).2 ∧ ∀ l, Report.redef x l ∉ (step xh st i).1 := by
  cases i with
  | decls ds =>
    obtain ⟨t1, t2⟩ := sups_static x ds st hi (fun d hd => hs (d, false) (by simp [flatItem, hd]))
    simp only [step]
    have hc : SInv x (checkDecl xh (sups st ds).2).2 ∧ ∀ l, Report.redef x l ∉ (checkDecl xh (sups st ds).2).1 := by
      unfold checkDecl
      split
      · exact ⟨t1, by simp⟩
      · refine ⟨t1, fun l => ?_⟩
        dsimp only
        split <;> simp
    exact ⟨hc.1, fun l h => (List.mem_append.1 h).elim (t2 l) (hc.2 l)⟩
  | defn d =>
    obtain ⟨⟨s1, s2⟩, s3, s4⟩ := sup_static false x st d hi (hs (d, true) (by simp [flatItem]))
    refine ⟨?_, s3⟩
    simp only [step]
    by_cases hx : d.name = x
    · rw [s4 hx]
      refine ⟨s1, ?_⟩
      intro e he
      simp only [setDefined, if_true, set, hx] at he
      rw [Option.map_eq_some_iff] at he
      obtain ⟨e0, h0, rfl⟩ := he
      exact s2 e0 h0
    · have hset : ∀ t e, set t d.name e x = t x := by
        intro t e
        simp only [set]
        rw [if_neg (fun h => hx h.symm)]
      cases (sup false st d).2.2 with
      | true => exact ⟨s1, by intro e he; simp only [setDefined, if_true, hset] at he; exact s2 e he⟩
      | false => exact ⟨by simp only [setDefined, Bool.false_eq_true, if_false, hset]; exact s1, s2⟩
  | other => exact ⟨hi, by simp [step]⟩
  | newFile => exact ⟨⟨hi.1, by simp [step]⟩, by simp [step]⟩

/-- No matter how often a function is defined, nothing is said of it being defined more than once when it is declared
static, whatever there is about other functions. -/
theorem C130_static_hides (xh : Nat → Bool) (is : List Item) (x : Nat) (hs : AllStatic is x) (l : Nat) :
    Report.redef x l ∉ reports xh is := by
  have key : ∀ (is : List Item) (st : State), SInv x st → AllStatic is x → ∀ l, Report.redef x l ∉ (run xh st is).1 := by
    intro is
    induction is with
    | nil => intro st _ _ l; simp [run]
    | cons i is ih =>
      intro st hi hs l h
      have hs' : ∀ p ∈ flatItem i ++ flat is, p.1.name = x → p.1.sc = .static_ := by
        have : flat (i :: is) = flatItem i ++ flat is := by simp [flat]
        rw [← this]; exact hs
      obtain ⟨s1, s2⟩ := step_static xh x st i hi (fun p hp => hs' p (by simp [hp]))
      simp only [run, List.mem_append] at h
      exact h.elim (s2 l) (ih _ s1 (fun p hp => hs' p (by simp [hp])) l)
  exact key is start ⟨rfl, by intro e he; cases he⟩ hs l

/-! ### Examples -/

def noXh : Nat → Bool := fun _ => false

/-- two definitions -/
example : NoStatic [.decls [⟨0, .none_, 1⟩], .defn ⟨0, .none_, 2⟩, .defn ⟨0, .none_, 3⟩] ∧
    reports noXh [.decls [⟨0, .none_, 1⟩], .defn ⟨0, .none_, 2⟩, .defn ⟨0, .none_, 3⟩] = [.redef 0 3] := by decide

/-- with the first declaration extern: nothing is reported -/
example : NoStatic [.decls [⟨0, .extern_, 1⟩], .defn ⟨0, .none_, 2⟩, .defn ⟨0, .none_, 3⟩] ∧
    reports noXh [.decls [⟨0, .extern_, 1⟩], .defn ⟨0, .none_, 2⟩, .defn ⟨0, .none_, 3⟩] = [] := by decide

/-- two static definitions -/
example : reports noXh [.defn ⟨0, .static_, 2⟩, .defn ⟨0, .static_, 3⟩] = [] := by decide

/-- a prototype after the definition -/
example : reports noXh [.defn ⟨0, .none_, 1⟩, .decls [⟨0, .none_, 2⟩]] = [.redef 0 2, .redecl 0 2 true] := by decide

/-- two functions declared again in one declaration -/
example : reports noXh [.decls [⟨0, .none_, 1⟩, ⟨1, .none_, 2⟩], .decls [⟨0, .none_, 3⟩, ⟨1, .none_, 4⟩]] =
    [.redecl 1 4 false] := by decide

/-- a prototype that hides a static one -/
example : reports noXh [.decls [⟨0, .static_, 1⟩], .decls [⟨0, .none_, 2⟩]] = [.shadow 0 2] := by decide

/-- the `.xh` file -/
example : reports (fun l => l == 2) [.decls [⟨0, .none_, 1⟩], .decls [⟨0, .none_, 2⟩], .decls [⟨0, .none_, 3⟩]] =
    [.redecl 0 3 false] := by decide

end Redeclared
end Splint
