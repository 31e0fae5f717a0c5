import Verif.Spec.MacroParam
/-! Lemmas for C106. -/
namespace Splint.MacroParam

open Spec

mutual

theorem run_msg (cond : Bool) (vis : Ent) (b : Body) (s : St) (h : s.msg = true) : (run cond vis b s).msg = true := by
  cases b with
  | skip => rw [run]; exact h
  | stop => rw [run]; exact h
  | use => rw [run]; simp [h]
  | seq a b => rw [run]; exact run_msg _ _ b _ (run_msg _ _ a _ h)
  | second a => rw [run]; simp [run_msg cond (s.cur.getD vis) a { s with cur := none } h]
  | ifThen a => rw [run]; simp [run_msg cond (s.cur.getD vis) a { s with cur := none } h]
  | ifElse a b =>
    rw [run]
    have h1 := run_msg cond (s.cur.getD vis) a { s with cur := none } h
    have h2 := run_msg cond (s.cur.getD vis) b { run cond (s.cur.getD vis) a { s with cur := none } with cur := none } h1
    simp only [h2, Bool.true_or]
  | loop c a =>
    rw [run]
    have h1 := run_msg cond vis c s h
    have h2 := run_msg true ((run cond vis c s).cur.getD vis) a { run cond vis c s with cur := none } h1
    simp only [h2, Bool.true_or]
  | doWhile a c => rw [run]; exact run_msg _ _ c _ (run_msg _ _ a _ h)
  | once a => rw [run]; exact run_msg _ _ a _ h
  | switch p a cs =>
    rw [run]
    have h1 := run_msg true (s.cur.getD vis) a { s with cur := none } h
    have h2 := runCases_msg (s.cur.getD vis) cs [(run true (s.cur.getD vis) a { s with cur := none }).cur] _ h1
    simp only [h2, Bool.true_or]

theorem runCases_msg (vis : Ent) (cs : Cases) (es : List (Option Ent)) (s : St) (h : s.msg = true) :
    (runCases vis cs es s).2.msg = true := by
  cases cs with
  | nil => rw [runCases]; exact h
  | cons a cs => rw [runCases]; exact runCases_msg _ cs _ _ (run_msg _ _ a _ h)

end

theorem mergeCases_none (old : Ent) (e : Bool) (ts : List (Option Ent)) (h : ∀ t ∈ ts, t = none) :
    mergeCases old e none ts = (none, false) := by
  induction ts generalizing e with
  | nil => rfl
  | cons t ts ih =>
    rw [h t List.mem_cons_self, mergeCases]
    simp only
    rw [ih false fun u hu => h u (List.mem_cons_of_mem _ hu)]
    rfl

mutual

theorem run_absent (cond : Bool) (vis : Ent) (b : Body) (s : St) (h : Occurs b = false) : run cond vis b s = s := by
  cases b with
  | skip => rw [run]
  | stop => rw [run]
  | use => simp [Occurs] at h
  | seq a b =>
    rw [Occurs, Bool.or_eq_false_iff] at h
    rw [run, run_absent _ _ a _ h.1, run_absent _ _ b _ h.2]
  | second a =>
    rw [Occurs] at h
    rw [run, run_absent _ _ a _ h]
    simp [popOne]
  | ifThen a =>
    rw [Occurs] at h
    rw [run, run_absent _ _ a _ h]
    simp [popOne]
  | ifElse a b =>
    rw [Occurs, Bool.or_eq_false_iff] at h
    rw [run, run_absent _ _ a _ h.1, run_absent _ _ b _ h.2]
    simp [popBranches]
  | loop c a =>
    rw [Occurs, Bool.or_eq_false_iff] at h
    rw [run, run_absent _ _ c _ h.1, run_absent _ _ a _ h.2]
    simp [popOne]
  | doWhile a c =>
    rw [Occurs, Bool.or_eq_false_iff] at h
    rw [run, run_absent _ _ a _ h.1, run_absent _ _ c _ h.2]
  | once a =>
    rw [Occurs] at h
    rw [run, run_absent _ _ a _ h]
  | switch p a cs =>
    rw [Occurs, Bool.or_eq_false_iff] at h
    rw [run, run_absent _ _ a _ h.1]
    simp only
    obtain ⟨es, h1, h2⟩ := runCases_absent (s.cur.getD vis) cs [none] { s with cur := none } h.2 (by simp) rfl
    rw [h1]
    simp only
    cases es with
    | nil => simp [exitSwitch]
    | cons l ts =>
      rw [exitSwitch, h2 l List.mem_cons_self]
      rw [mergeCases_none _ _ _ fun u hu => h2 u (List.mem_cons_of_mem _ hu)]
      simp

theorem runCases_absent (vis : Ent) (cs : Cases) (es : List (Option Ent)) (s : St) (h : OccursCases cs = false)
    (he : ∀ t ∈ es, t = none) (hs : s.cur = none) :
    ∃ es', runCases vis cs es s = (es', s) ∧ ∀ t ∈ es', t = none := by
  cases cs with
  | nil => exact ⟨es, by rw [runCases], he⟩
  | cons a cs =>
    rw [OccursCases, Bool.or_eq_false_iff] at h
    rw [runCases, run_absent _ _ a _ h.1]
    have hss : { s with cur := none } = s := by rw [← hs]
    rw [hss]
    refine runCases_absent vis cs _ s h.2 ?_ hs
    intro t ht
    rcases List.mem_cons.mp ht with rfl | ht
    · exact hs
    · exact he t ht

end

theorem accepted_occurs (b : Body) (h : Accepted b = true) : Occurs b = true := by
  induction b using Body.rec (motive_2 := fun _ => True) <;> simp_all [Accepted, Occurs]
  all_goals tauto

/-- Accepted: no message. -/
theorem run_accepted (_vis : Ent) (b : Body) (h : Accepted b = true) : ∀ (vis : Ent) (s : St), s.cur.getD vis = ⟨false, false⟩ → s.msg = false →
    run false vis b s = ⟨some ⟨true, false⟩, false, true⟩ := by
  induction b using Body.rec (motive_2 := fun _ => True) with
  | skip => simp [Accepted] at h
  | stop => simp [Accepted] at h
  | use => intro vis s hc hm; rw [run, hc]; simp [setUsed, hm]
  | seq a b iha ihb =>
    intro vis s hc hm
    rw [Accepted, Bool.or_eq_true, Bool.and_eq_true, Bool.and_eq_true, Bool.not_eq_true', Bool.not_eq_true'] at h
    rw [run]
    rcases h with ⟨h1, h2⟩ | ⟨h1, h2⟩
    · rw [iha h1 vis s hc hm, run_absent _ _ b _ h2]
    · rw [run_absent _ _ a _ h1, ihb h2 vis s hc hm]
  | doWhile a b iha ihb =>
    intro vis s hc hm
    rw [Accepted, Bool.or_eq_true, Bool.and_eq_true, Bool.and_eq_true, Bool.not_eq_true', Bool.not_eq_true'] at h
    rw [run]
    rcases h with ⟨h1, h2⟩ | ⟨h1, h2⟩
    · rw [iha h1 vis s hc hm, run_absent _ _ b _ h2]
    · rw [run_absent _ _ a _ h1, ihb h2 vis s hc hm]
  | second a => simp [Accepted] at h
  | ifThen a => simp [Accepted] at h
  | ifElse a b iha ihb =>
    intro vis s hc hm
    rw [Accepted, Bool.and_eq_true, Bool.or_eq_true, Bool.and_eq_true, Bool.not_eq_true'] at h
    rw [run, hc, iha h.1 ⟨false, false⟩ { s with cur := none } rfl hm]
    rcases h.2 with h2 | ⟨h2, h3⟩
    · rw [ihb h2 ⟨false, false⟩ ⟨none, false, true⟩ rfl rfl]
      cases escapes a <;> cases escapes b <;> rfl
    · rw [run_absent _ _ b _ h2, h3]
      cases escapes a <;> rfl
  | loop c a ihc =>
    intro vis s hc hm
    rw [Accepted, Bool.and_eq_true, Bool.not_eq_true'] at h
    rw [run, ihc h.1 vis s hc hm, run_absent _ _ a _ h.2]
    simp [popOne]
  | once a ih =>
    intro vis s hc hm
    rw [Accepted] at h
    rw [run, ih h vis s hc hm]
  | switch => simp [Accepted] at h
  | nil => trivial
  | cons => trivial

mutual

/-- Anything else: a message. -/
theorem run_refused (cond : Bool) (vis : Ent) (b : Body) (s : St) (ho : Occurs b = true) (hs : (s.cur.getD vis).sef = false)
    (h : cond = true ∨ (s.cur.getD vis).used = true ∨ Accepted b = false) : (run cond vis b s).msg = true := by
  by_cases hm : s.msg = true
  · exact run_msg _ _ _ _ hm
  have hm : s.msg = false := by simpa using hm
  -- two parts, one after the other
  have two : ∀ a c : Body, (Occurs a || Occurs c) = true →
      (Occurs a = true → (cond = true ∨ (s.cur.getD vis).used = true ∨ Accepted a = false) → (run cond vis a s).msg = true) →
      (∀ s : St, Occurs c = true → (s.cur.getD vis).sef = false → (cond = true ∨ (s.cur.getD vis).used = true ∨ Accepted c = false) →
        (run cond vis c s).msg = true) →
      (cond = true ∨ (s.cur.getD vis).used = true ∨ ((Accepted a && !Occurs c) || (!Occurs a && Accepted c)) = false) →
      (run cond vis c (run cond vis a s)).msg = true := by
    intro a c ho2 ha hc h2
    by_cases hoa : Occurs a = true
    · by_cases hbad : cond = true ∨ (s.cur.getD vis).used = true ∨ Accepted a = false
      · exact run_msg _ _ _ _ (ha hoa hbad)
      · push Not at hbad
        obtain ⟨b1, b2, b3⟩ := hbad
        have e1 : cond = false := by simpa using b1
        have e2 : s.cur.getD vis = ⟨false, false⟩ := by
          cases hv : s.cur.getD vis with
          | mk u f => rw [hv] at b2 hs; simp_all
        have e3 : Accepted a = true := by simpa using b3
        subst e1
        rw [run_accepted vis a e3 vis s e2 hm]
        have hoc : Occurs c = true := by
          rw [e3, hoa] at h2
          simpa [e2] using h2
        exact hc _ hoc rfl (.inr (.inl rfl))
    · have hoa : Occurs a = false := by simpa using hoa
      rw [run_absent _ _ a _ hoa]
      rw [hoa, Bool.false_or] at ho2
      refine hc s ho2 hs ?_
      have : Accepted a = false := by
        by_contra hx
        have := accepted_occurs a (by simpa using hx)
        rw [hoa] at this; cases this
      simpa [this, hoa] using h2
  -- a branch
  have branch : ∀ a : Body, Occurs a = true → (∀ s' : St, (s'.cur.getD (s.cur.getD vis)).sef = false →
        (cond = true ∨ (s'.cur.getD (s.cur.getD vis)).used = true ∨ Accepted a = false) → (run cond (s.cur.getD vis) a s').msg = true) →
      ((run cond (s.cur.getD vis) a { s with cur := none }).msg || (popOne (s.cur.getD vis)
        (run cond (s.cur.getD vis) a { s with cur := none }).cur s.cur).2) = true := by
    intro a hoa ha
    by_cases hbad : cond = true ∨ (s.cur.getD vis).used = true ∨ Accepted a = false
    · rw [ha { s with cur := none } hs hbad, Bool.true_or]
    · push Not at hbad
      obtain ⟨b1, b2, b3⟩ := hbad
      have e1 : cond = false := by simpa using b1
      have e2 : s.cur.getD vis = ⟨false, false⟩ := by
        cases hv : s.cur.getD vis with
        | mk u f => rw [hv] at b2 hs; simp_all
      have e3 : Accepted a = true := by simpa using b3
      subst e1
      rw [e2, run_accepted vis a e3 ⟨false, false⟩ { s with cur := none } rfl hm]
      rfl
  cases b with
  | skip => simp [Occurs] at ho
  | stop => simp [Occurs] at ho
  | use =>
    rw [run]
    simp only [setUsed, hs, Accepted] at h ⊢
    rcases h with h | h | h
    · simp [h]
    · cases cond <;> simp [h]
    · cases h
  | seq a b =>
    rw [Occurs] at ho
    rw [Accepted] at h
    rw [run]
    exact two a b ho (fun h1 h2 => run_refused cond vis a s h1 hs h2) (fun s h1 h2 h3 => run_refused cond vis b s h1 h2 h3) h
  | doWhile a b =>
    rw [Occurs] at ho
    rw [Accepted] at h
    rw [run]
    exact two a b ho (fun h1 h2 => run_refused cond vis a s h1 hs h2) (fun s h1 h2 h3 => run_refused cond vis b s h1 h2 h3) h
  | second a =>
    rw [Occurs] at ho
    rw [run]
    exact branch a ho fun s' h1 h2 => run_refused cond _ a s' ho h1 h2
  | ifThen a =>
    rw [Occurs] at ho
    rw [run]
    exact branch a ho fun s' h1 h2 => run_refused cond _ a s' ho h1 h2
  | ifElse a b =>
    rw [Occurs] at ho
    rw [Accepted] at h
    rw [run]
    simp only
    by_cases hbad : cond = true ∨ (s.cur.getD vis).used = true
    · by_cases hoa : Occurs a = true
      · have h1 := run_refused cond (s.cur.getD vis) a { s with cur := none } hoa hs (hbad.elim .inl fun h => .inr (.inl h))
        exact Bool.or_eq_true_iff.mpr (.inl (run_msg cond _ b { run cond (s.cur.getD vis) a { s with cur := none } with cur := none } h1))
      · have hoa : Occurs a = false := by simpa using hoa
        rw [hoa, Bool.false_or] at ho
        rw [run_absent _ _ a _ hoa]
        have h1 := run_refused cond (s.cur.getD vis) b { s with cur := none } ho hs (hbad.elim .inl fun h => .inr (.inl h))
        rw [h1, Bool.true_or]
    · push Not at hbad
      obtain ⟨b1, b2⟩ := hbad
      have e1 : cond = false := by simpa using b1
      have e2 : s.cur.getD vis = ⟨false, false⟩ := by
        cases hv : s.cur.getD vis with
        | mk u f => rw [hv] at b2 hs; simp_all
      replace h := (h.resolve_left b1).resolve_left b2
      subst e1
      by_cases hoa : Occurs a = true
      · by_cases haa : Accepted a = true
        · rw [haa, Bool.true_and, Bool.or_eq_false_iff] at h
          rw [e2, run_accepted vis a haa ⟨false, false⟩ { s with cur := none } rfl hm]
          simp only
          by_cases hob : Occurs b = true
          · rw [run_refused false ⟨false, false⟩ b ⟨none, false, true⟩ hob rfl (.inr (.inr h.1)), Bool.true_or]
          · have hob : Occurs b = false := by simpa using hob
            rw [run_absent _ _ b _ hob]
            have : escapes b = false := by simpa [hob] using h.2
            rw [this]
            rfl
        · have h1 := run_refused false (s.cur.getD vis) a { s with cur := none } hoa hs (.inr (.inr (by simpa using haa)))
          exact Bool.or_eq_true_iff.mpr (.inl (run_msg false _ b { run false (s.cur.getD vis) a { s with cur := none } with cur := none } h1))
      · have hoa : Occurs a = false := by simpa using hoa
        rw [hoa, Bool.false_or] at ho
        rw [run_absent _ _ a _ hoa]
        by_cases hab : Accepted b = true
        · rw [e2, run_accepted vis b hab ⟨false, false⟩ { s with cur := none } rfl hm]
          rfl
        · have h1 := run_refused false (s.cur.getD vis) b { s with cur := none } ho hs (.inr (.inr (by simpa using hab)))
          rw [h1, Bool.true_or]
  | loop c a =>
    rw [Occurs] at ho
    rw [Accepted] at h
    rw [run]
    simp only
    by_cases hoc : Occurs c = true
    · by_cases hbad : cond = true ∨ (s.cur.getD vis).used = true ∨ Accepted c = false
      · have h1 := run_refused cond vis c s hoc hs hbad
        exact Bool.or_eq_true_iff.mpr (.inl (run_msg true _ a { run cond vis c s with cur := none } h1))
      · push Not at hbad
        obtain ⟨b1, b2, b3⟩ := hbad
        have e1 : cond = false := by simpa using b1
        have e2 : s.cur.getD vis = ⟨false, false⟩ := by
          cases hv : s.cur.getD vis with
          | mk u f => rw [hv] at b2 hs; simp_all
        have e3 : Accepted c = true := by simpa using b3
        subst e1
        rw [run_accepted vis c e3 vis s e2 hm]
        have hoa : Occurs a = true := by
          rw [e3] at h
          simpa [e2] using h
        rw [run_refused true (Option.getD (some ⟨true, false⟩) vis) a ⟨none, false, true⟩ hoa rfl (.inl rfl), Bool.true_or]
    · have hoc : Occurs c = false := by simpa using hoc
      rw [hoc, Bool.false_or] at ho
      rw [run_absent _ _ c _ hoc]
      rw [run_refused true (s.cur.getD vis) a { s with cur := none } ho hs (.inl rfl), Bool.true_or]
  | once a =>
    rw [Occurs] at ho
    rw [Accepted] at h
    rw [run]
    exact run_refused cond vis a s ho hs h
  | switch p a cs =>
    rw [Occurs] at ho
    rw [run]
    simp only
    by_cases hoa : Occurs a = true
    · have h1 := run_refused true (s.cur.getD vis) a { s with cur := none } hoa hs (.inl rfl)
      rw [runCases_msg _ cs _ _ h1, Bool.true_or]
    · have hoa : Occurs a = false := by simpa using hoa
      rw [hoa, Bool.false_or] at ho
      rw [run_absent _ _ a _ hoa]
      rw [runCases_refused _ cs _ _ ho hs, Bool.true_or]

theorem runCases_refused (vis : Ent) (cs : Cases) (es : List (Option Ent)) (s : St) (ho : OccursCases cs = true) (hv : vis.sef = false) :
    (runCases vis cs es s).2.msg = true := by
  cases cs with
  | nil => simp [OccursCases] at ho
  | cons a cs =>
    rw [OccursCases] at ho
    rw [runCases]
    by_cases hoa : Occurs a = true
    · exact runCases_msg _ cs _ _ (run_refused true vis a { s with cur := none } hoa hv (.inl rfl))
    · have hoa : Occurs a = false := by simpa using hoa
      rw [hoa, Bool.false_or] at ho
      exact runCases_refused vis cs _ _ ho hv

end

theorem reported_iff (b : Body) : reported b = !Accepted b := by
  rw [reported]
  by_cases ha : Accepted b = true
  · rw [run_accepted ⟨false, false⟩ b ha ⟨false, false⟩ _ rfl rfl, ha]
    rfl
  · have ha' : Accepted b = false := by simpa using ha
    rw [ha']
    by_cases ho : Occurs b = true
    · rw [run_refused false ⟨false, false⟩ b ⟨some ⟨false, false⟩, false, false⟩ ho rfl (.inr (.inr ha'))]
      rfl
    · rw [run_absent _ _ b _ (by simpa using ho)]
      rfl

/-! Executions. -/

theorem case_occurs {b : Body} : ∀ {cs : Cases}, Case b cs → OccursCases cs = false → Occurs b = false
  | .nil, h, _ => absurd h (by simp [Case])
  | .cons a cs, h, ho => by
    rw [OccursCases, Bool.or_eq_false_iff] at ho
    rw [Case] at h
    rcases h with rfl | h
    · exact ho.1
    · exact case_occurs h ho.2

theorem case_stays {b : Body} : ∀ {cs : Cases}, Case b cs → StaysCases cs = true → Stays b = true
  | .nil, h, _ => absurd h (by simp [Case])
  | .cons a cs, h, ho => by
    rw [StaysCases, Bool.and_eq_true] at ho
    rw [Case] at h
    rcases h with rfl | h
    · exact ho.1
    · exact case_stays h ho.2

theorem exec_zero {b : Body} {n : Nat} {o : Out} (h : Exec b n o) : Occurs b = false → n = 0 := by
  induction h with
  | skip => intro _; rfl
  | stop => intro _; rfl
  | use => intro h; simp [Occurs] at h
  | seq _ _ ih1 ih2 => intro h; rw [Occurs, Bool.or_eq_false_iff] at h; rw [ih1 h.1, ih2 h.2]
  | seqLeft _ ih => intro h; rw [Occurs, Bool.or_eq_false_iff] at h; exact ih h.1
  | secondNot => intro _; rfl
  | second _ ih => intro h; rw [Occurs] at h; exact ih h
  | ifNot => intro _; rfl
  | ifThen _ ih => intro h; rw [Occurs] at h; exact ih h
  | ifTrue _ ih => intro h; rw [Occurs, Bool.or_eq_false_iff] at h; exact ih h.1
  | ifFalse _ ih => intro h; rw [Occurs, Bool.or_eq_false_iff] at h; exact ih h.2
  | loopEnd _ ih => intro h; rw [Occurs, Bool.or_eq_false_iff] at h; exact ih h.1
  | loopLeft _ _ ih1 ih2 => intro h; rw [Occurs, Bool.or_eq_false_iff] at h; rw [ih1 h.1, ih2 h.2]
  | loop _ _ _ ih1 ih2 ih3 => intro h; have h' := h; rw [Occurs, Bool.or_eq_false_iff] at h; rw [ih1 h.1, ih2 h.2, ih3 h']
  | doEnd _ ih => intro h; rw [Occurs] at h; exact ih (by rw [Occurs]; exact h)
  | doWhile _ _ ih1 ih2 => intro h; have h' := h; rw [Occurs] at h; rw [ih1 (by rw [Occurs]; exact h), ih2 h']
  | once _ ih => intro h; rw [Occurs] at h; exact ih h
  | switchNot => intro _; rfl
  | switchFirst _ ih => intro h; rw [Occurs, Bool.or_eq_false_iff] at h; exact ih h.1
  | switch hc _ ih => intro h; rw [Occurs, Bool.or_eq_false_iff] at h; exact ih (case_occurs hc h.2)

theorem exec_done {b : Body} {n : Nat} {o : Out} (h : Exec b n o) : Stays b = true → o = .done := by
  induction h with
  | skip => intro _; rfl
  | stop => intro h; simp [Stays] at h
  | use => intro _; rfl
  | seq _ _ _ ih2 => intro h; rw [Stays, Bool.and_eq_true] at h; exact ih2 h.2
  | seqLeft _ ih => intro h; rw [Stays, Bool.and_eq_true] at h; exact ih h.1
  | secondNot => intro _; rfl
  | second _ ih => intro h; rw [Stays] at h; exact ih h
  | ifNot => intro _; rfl
  | ifThen _ ih => intro h; rw [Stays] at h; exact ih h
  | ifTrue _ ih => intro h; rw [Stays, Bool.and_eq_true] at h; exact ih h.1
  | ifFalse _ ih => intro h; rw [Stays, Bool.and_eq_true] at h; exact ih h.2
  | loopEnd _ ih => intro h; rw [Stays, Bool.and_eq_true] at h; exact ih h.1
  | loopLeft _ _ _ ih2 => intro h; rw [Stays, Bool.and_eq_true] at h; exact ih2 h.2
  | loop _ _ _ _ _ ih3 => exact ih3
  | doEnd _ ih => intro h; rw [Stays] at h; exact ih (by rw [Stays]; exact h)
  | doWhile _ _ _ ih2 => exact ih2
  | once _ ih => intro h; rw [Stays] at h; exact ih h
  | switchNot => intro _; rfl
  | switchFirst _ ih => intro h; rw [Stays, Bool.and_eq_true] at h; exact ih h.1
  | switch hc _ ih => intro h; rw [Stays, Bool.and_eq_true] at h; exact ih (case_stays hc h.2)

theorem stays_escapes (b : Body) (h : Stays b = true) : escapes b = false := by
  induction b using Body.rec (motive_2 := fun cs => True) <;> simp_all [Stays, escapes]

theorem exec_one {b : Body} {n : Nat} {o : Out} (h : Exec b n o) : Stays b = true → LoopFree b = true → Accepted b = true → n = 1 := by
  induction h with
  | skip => intro _ _ h; simp [Accepted] at h
  | stop => intro _ _ h; simp [Accepted] at h
  | use => intro _ _ _; rfl
  | seq h1 h2 ih1 ih2 =>
    intro hs hl ha
    rw [Stays, Bool.and_eq_true] at hs
    rw [LoopFree, Bool.and_eq_true] at hl
    rw [Accepted, Bool.or_eq_true, Bool.and_eq_true, Bool.and_eq_true, Bool.not_eq_true', Bool.not_eq_true'] at ha
    rcases ha with ⟨a1, a2⟩ | ⟨a1, a2⟩
    · rw [ih1 hs.1 hl.1 a1, exec_zero h2 a2]
    · rw [exec_zero h1 a1, ih2 hs.2 hl.2 a2]
  | seqLeft h1 ih =>
    intro hs _ _
    rw [Stays, Bool.and_eq_true] at hs
    cases exec_done h1 hs.1
  | secondNot => intro _ _ h; simp [Accepted] at h
  | second => intro _ _ h; simp [Accepted] at h
  | ifNot => intro _ _ h; simp [Accepted] at h
  | ifThen => intro _ _ h; simp [Accepted] at h
  | ifTrue _ ih =>
    intro hs hl ha
    rw [Stays, Bool.and_eq_true] at hs
    rw [LoopFree, Bool.and_eq_true] at hl
    rw [Accepted, Bool.and_eq_true] at ha
    exact ih hs.1 hl.1 ha.1
  | ifFalse _ ih =>
    intro hs hl ha
    rw [Stays, Bool.and_eq_true] at hs
    rw [LoopFree, Bool.and_eq_true] at hl
    rw [Accepted, Bool.and_eq_true, stays_escapes _ hs.2, Bool.and_false, Bool.or_false] at ha
    exact ih hs.2 hl.2 ha.2
  | @loopEnd c a n o _ ih =>
    intro hs hl ha
    rw [LoopFree, Bool.and_eq_true, Bool.not_eq_true'] at hl
    rw [Accepted, Bool.and_eq_true] at ha
    have := accepted_occurs c ha.1
    rw [hl.1] at this; cases this
  | @loopLeft c a n m _ _ _ _ =>
    intro hs hl ha
    rw [LoopFree, Bool.and_eq_true, Bool.not_eq_true'] at hl
    rw [Accepted, Bool.and_eq_true] at ha
    have := accepted_occurs c ha.1
    rw [hl.1] at this; cases this
  | @loop c a n m k o _ _ _ _ _ _ =>
    intro hs hl ha
    rw [LoopFree, Bool.and_eq_true, Bool.not_eq_true'] at hl
    rw [Accepted, Bool.and_eq_true] at ha
    have := accepted_occurs c ha.1
    rw [hl.1] at this; cases this
  | @doEnd a c n o _ _ =>
    intro hs hl ha
    rw [LoopFree, Bool.and_eq_true, Bool.not_eq_true', Bool.not_eq_true'] at hl
    have := accepted_occurs _ ha
    rw [Occurs, hl.1, hl.2] at this; cases this
  | @doWhile a c n m o _ _ _ _ =>
    intro hs hl ha
    rw [LoopFree, Bool.and_eq_true, Bool.not_eq_true', Bool.not_eq_true'] at hl
    have := accepted_occurs _ ha
    rw [Occurs, hl.1, hl.2] at this; cases this
  | once _ ih =>
    intro hs hl ha
    rw [Stays] at hs
    rw [LoopFree] at hl
    rw [Accepted] at ha
    exact ih hs hl ha
  | switchNot => intro _ _ h; simp [Accepted] at h
  | switchFirst => intro _ _ h; simp [Accepted] at h
  | switch => intro _ _ h; simp [Accepted] at h

theorem exec_some (b : Body) (h : Stays b = true) : ∃ n, Exec b n .done := by
  induction b using Body.rec (motive_2 := fun _ => True) with
  | skip => exact ⟨0, .skip⟩
  | use => exact ⟨1, .use⟩
  | stop => simp [Stays] at h
  | seq a b iha ihb =>
    rw [Stays, Bool.and_eq_true] at h
    obtain ⟨n, hn⟩ := iha h.1
    obtain ⟨m, hm⟩ := ihb h.2
    exact ⟨_, .seq hn hm⟩
  | second a => exact ⟨0, .secondNot⟩
  | ifThen a => exact ⟨0, .ifNot⟩
  | ifElse a b iha _ =>
    rw [Stays, Bool.and_eq_true] at h
    obtain ⟨n, hn⟩ := iha h.1
    exact ⟨n, .ifTrue hn⟩
  | loop c a ihc _ =>
    rw [Stays, Bool.and_eq_true] at h
    obtain ⟨n, hn⟩ := ihc h.1
    exact ⟨n, .loopEnd hn⟩
  | doWhile a c iha ihc =>
    rw [Stays, Bool.and_eq_true] at h
    obtain ⟨n, hn⟩ := iha h.1
    obtain ⟨m, hm⟩ := ihc h.2
    exact ⟨_, .doEnd (.seq hn hm)⟩
  | once a ih =>
    rw [Stays] at h
    obtain ⟨n, hn⟩ := ih h
    exact ⟨n, .once hn⟩
  | switch p a cs ih _ =>
    rw [Stays, Bool.and_eq_true] at h
    obtain ⟨n, hn⟩ := ih h.1
    exact ⟨n, .switchFirst hn⟩
  | nil => trivial
  | cons => trivial

/-- If the parameter occurs there is an execution that evaluates it. -/
theorem exec_pos (b : Body) (h : Stays b = true) (ho : Occurs b = true) : ∃ n, 1 ≤ n ∧ Exec b n .done := by
  induction b using Body.rec (motive_2 := fun cs => StaysCases cs = true → OccursCases cs = true → ∃ b n, Case b cs ∧ 1 ≤ n ∧ Exec b n .done) with
  | skip => simp [Occurs] at ho
  | use => exact ⟨1, Nat.le_refl _, .use⟩
  | stop => simp [Occurs] at ho
  | seq a b iha ihb =>
    rw [Stays, Bool.and_eq_true] at h
    rw [Occurs, Bool.or_eq_true] at ho
    rcases ho with ho | ho
    · obtain ⟨n, h1, hn⟩ := iha h.1 ho
      obtain ⟨m, hm⟩ := exec_some b h.2
      exact ⟨n + m, by omega, .seq hn hm⟩
    · obtain ⟨n, h1, hn⟩ := ihb h.2 ho
      obtain ⟨m, hm⟩ := exec_some a h.1
      exact ⟨m + n, by omega, .seq hm hn⟩
  | second a ih =>
    rw [Stays] at h
    rw [Occurs] at ho
    obtain ⟨n, h1, hn⟩ := ih h ho
    exact ⟨n, h1, .second hn⟩
  | ifThen a ih =>
    rw [Stays] at h
    rw [Occurs] at ho
    obtain ⟨n, h1, hn⟩ := ih h ho
    exact ⟨n, h1, .ifThen hn⟩
  | ifElse a b iha ihb =>
    rw [Stays, Bool.and_eq_true] at h
    rw [Occurs, Bool.or_eq_true] at ho
    rcases ho with ho | ho
    · obtain ⟨n, h1, hn⟩ := iha h.1 ho
      exact ⟨n, h1, .ifTrue hn⟩
    · obtain ⟨n, h1, hn⟩ := ihb h.2 ho
      exact ⟨n, h1, .ifFalse hn⟩
  | loop c a ihc iha =>
    rw [Stays, Bool.and_eq_true] at h
    rw [Occurs, Bool.or_eq_true] at ho
    rcases ho with ho | ho
    · obtain ⟨n, h1, hn⟩ := ihc h.1 ho
      exact ⟨n, h1, .loopEnd hn⟩
    · obtain ⟨n, h1, hn⟩ := iha h.2 ho
      obtain ⟨m, hm⟩ := exec_some c h.1
      exact ⟨m + n + m, by omega, .loop hm hn (.loopEnd hm)⟩
  | doWhile a c iha ihc =>
    rw [Stays, Bool.and_eq_true] at h
    rw [Occurs, Bool.or_eq_true] at ho
    rcases ho with ho | ho
    · obtain ⟨n, h1, hn⟩ := iha h.1 ho
      obtain ⟨m, hm⟩ := exec_some c h.2
      exact ⟨n + m, by omega, .doEnd (.seq hn hm)⟩
    · obtain ⟨n, h1, hn⟩ := ihc h.2 ho
      obtain ⟨m, hm⟩ := exec_some a h.1
      exact ⟨m + n, by omega, .doEnd (.seq hm hn)⟩
  | once a ih =>
    rw [Stays] at h
    rw [Occurs] at ho
    obtain ⟨n, h1, hn⟩ := ih h ho
    exact ⟨n, h1, .once hn⟩
  | switch p a cs iha ihcs =>
    rw [Stays, Bool.and_eq_true] at h
    rw [Occurs, Bool.or_eq_true] at ho
    rcases ho with ho | ho
    · obtain ⟨n, h1, hn⟩ := iha h.1 ho
      exact ⟨n, h1, .switchFirst hn⟩
    · obtain ⟨b, n, hc, h1, hn⟩ := ihcs h.2 ho
      exact ⟨n, h1, .switch hc hn⟩
  | nil h ho => simp [OccursCases] at ho
  | cons a cs iha ihcs h ho =>
    rw [StaysCases, Bool.and_eq_true] at h
    rw [OccursCases, Bool.or_eq_true] at ho
    rcases ho with ho | ho
    · obtain ⟨n, h1, hn⟩ := iha h.1 ho
      exact ⟨a, n, .inl rfl, h1, hn⟩
    · obtain ⟨b, n, hc, h1, hn⟩ := ihcs h.2 ho
      exact ⟨b, n, .inr hc, h1, hn⟩

theorem seq_other {a b : Body} (hs : Stays a = true) (hs' : Stays b = true)
    (iha : Accepted a = false → ∃ n, n ≠ 1 ∧ Exec a n .done) (ihb : Accepted b = false → ∃ n, n ≠ 1 ∧ Exec b n .done)
    (h : ((Accepted a && !Occurs b) || (!Occurs a && Accepted b)) = false) : ∃ n, n ≠ 1 ∧ Exec (.seq a b) n .done := by
  by_cases hoa : Occurs a = true
  · by_cases hob : Occurs b = true
    · obtain ⟨n, h1, hn⟩ := exec_pos a hs hoa
      obtain ⟨m, h2, hm⟩ := exec_pos b hs' hob
      exact ⟨n + m, by omega, .seq hn hm⟩
    · have hob : Occurs b = false := by simpa using hob
      obtain ⟨n, h1, hn⟩ := iha (by simpa [hob, hoa] using h)
      obtain ⟨m, hm⟩ := exec_some b hs'
      have := exec_zero hm hob
      exact ⟨n + m, by omega, .seq hn hm⟩
  · have hoa : Occurs a = false := by simpa using hoa
    have haa : Accepted a = false := by
      by_contra hx
      have := accepted_occurs a (by simpa using hx)
      rw [hoa] at this; cases this
    obtain ⟨n, h1, hn⟩ := ihb (by simpa [haa, hoa] using h)
    obtain ⟨m, hm⟩ := exec_some a hs
    have := exec_zero hm hoa
    exact ⟨m + n, by omega, .seq hm hn⟩

theorem exec_other (b : Body) (hs : Stays b = true) (hw : SwitchFree b = true) (ha : Accepted b = false) :
    ∃ n, n ≠ 1 ∧ Exec b n .done := by
  induction b using Body.rec (motive_2 := fun _ => True) with
  | skip => exact ⟨0, by omega, .skip⟩
  | use => simp [Accepted] at ha
  | stop => simp [Stays] at hs
  | seq a b iha ihb =>
    rw [Stays, Bool.and_eq_true] at hs
    rw [SwitchFree, Bool.and_eq_true] at hw
    rw [Accepted] at ha
    exact seq_other hs.1 hs.2 (iha hs.1 hw.1) (ihb hs.2 hw.2) ha
  | second a => exact ⟨0, by omega, .secondNot⟩
  | ifThen a => exact ⟨0, by omega, .ifNot⟩
  | ifElse a b iha ihb =>
    rw [Stays, Bool.and_eq_true] at hs
    rw [SwitchFree, Bool.and_eq_true] at hw
    rw [Accepted, stays_escapes b hs.2, Bool.and_false, Bool.or_false, Bool.and_eq_false_iff] at ha
    rcases ha with ha | ha
    · obtain ⟨n, h1, hn⟩ := iha hs.1 hw.1 ha
      exact ⟨n, h1, .ifTrue hn⟩
    · obtain ⟨n, h1, hn⟩ := ihb hs.2 hw.2 ha
      exact ⟨n, h1, .ifFalse hn⟩
  | loop c a _ _ =>
    rw [Stays, Bool.and_eq_true] at hs
    obtain ⟨m, hm⟩ := exec_some a hs.2
    by_cases hoc : Occurs c = true
    · obtain ⟨n, h1, hn⟩ := exec_pos c hs.1 hoc
      exact ⟨n + m + n, by omega, .loop hn hm (.loopEnd hn)⟩
    · obtain ⟨n, hn⟩ := exec_some c hs.1
      have := exec_zero hn (by simpa using hoc)
      exact ⟨n, by omega, .loopEnd hn⟩
  | doWhile a c _ _ =>
    rw [Stays, Bool.and_eq_true] at hs
    by_cases ho : Occurs (.seq a c) = true
    · obtain ⟨n, h1, hn⟩ := exec_pos (.seq a c) (by rw [Stays, hs.1, hs.2]; rfl) ho
      exact ⟨n + n, by omega, .doWhile hn (.doEnd hn)⟩
    · obtain ⟨n, hn⟩ := exec_some (.seq a c) (by rw [Stays, hs.1, hs.2]; rfl)
      have := exec_zero hn (by simpa using ho)
      exact ⟨n, by omega, .doEnd hn⟩
  | once a ih =>
    rw [Stays] at hs
    rw [SwitchFree] at hw
    rw [Accepted] at ha
    obtain ⟨n, h1, hn⟩ := ih hs hw ha
    exact ⟨n, h1, .once hn⟩
  | switch p a cs _ _ =>
    rw [SwitchFree, Bool.and_eq_true, Bool.not_eq_true', Bool.not_eq_true'] at hw
    obtain ⟨n, hn⟩ := exec_some (.switch p a cs) hs
    have := exec_zero hn (by rw [Occurs, hw.1, hw.2]; rfl)
    exact ⟨n, by omega, hn⟩
  | nil => trivial
  | cons => trivial

theorem escapesAll_case {b : Body} : ∀ {cs : Cases}, Case b cs → escapesAll cs = true → escapes b = true
  | .nil, h, _ => h.elim
  | .cons _ _, .inl h, he => by
    rw [escapesAll, Bool.and_eq_true] at he
    rw [h]; exact he.1
  | .cons _ _, .inr h, he => by
    rw [escapesAll, Bool.and_eq_true] at he
    exact escapesAll_case h he.2

theorem escapes_left {b : Body} {n : Nat} {o : Out} (h : Exec b n o) : escapes b = true → o = .left := by
  induction h with
  | stop | seqLeft | loopLeft => intro; rfl
  | skip | use | secondNot | ifNot | second | ifThen => intro h; simp [escapes] at h
  | seq _ _ ih1 ih2 =>
    intro h
    rw [escapes, Bool.or_eq_true] at h
    rcases h with h | h
    · cases ih1 h
    · exact ih2 h
  | ifTrue _ ih => intro h; rw [escapes, Bool.and_eq_true] at h; exact ih h.1
  | ifFalse _ ih => intro h; rw [escapes, Bool.and_eq_true] at h; exact ih h.2
  | loopEnd _ ih => intro h; rw [escapes] at h; exact ih h
  | loop _ _ _ ih1 _ _ => intro h; rw [escapes] at h; cases ih1 h
  | doEnd _ ih => intro h; rw [escapes] at h; exact ih (by rw [escapes]; exact h)
  | doWhile _ _ ih1 _ => intro h; rw [escapes] at h; cases ih1 (by rw [escapes]; exact h)
  | once _ ih => intro h; rw [escapes] at h; exact ih h
  | switchNot => intro h; simp [escapes] at h
  | switchFirst _ ih =>
    intro h
    rw [escapes, Bool.and_eq_true, Bool.and_eq_true] at h
    exact ih h.1.2
  | switch hc _ ih =>
    intro h
    rw [escapes, Bool.and_eq_true, Bool.and_eq_true] at h
    exact ih (escapesAll_case hc h.2)

mutual

theorem escapes_done : ∀ (b : Body), escapes b = false → ∃ n, Exec b n .done
  | .stop, h => by simp [escapes] at h
  | .skip, _ => ⟨_, .skip⟩
  | .use, _ => ⟨_, .use⟩
  | .second _, _ => ⟨_, .secondNot⟩
  | .ifThen _, _ => ⟨_, .ifNot⟩
  | .seq a b, h => by
    rw [escapes, Bool.or_eq_false_iff] at h
    obtain ⟨n, hn⟩ := escapes_done a h.1
    obtain ⟨m, hm⟩ := escapes_done b h.2
    exact ⟨_, .seq hn hm⟩
  | .ifElse a b, h => by
    rw [escapes, Bool.and_eq_false_iff] at h
    rcases h with h | h
    · obtain ⟨n, hn⟩ := escapes_done a h
      exact ⟨_, .ifTrue hn⟩
    · obtain ⟨n, hn⟩ := escapes_done b h
      exact ⟨_, .ifFalse hn⟩
  | .doWhile a c, h => by
    rw [escapes, Bool.or_eq_false_iff] at h
    obtain ⟨n, hn⟩ := escapes_done a h.1
    obtain ⟨m, hm⟩ := escapes_done c h.2
    exact ⟨_, .doEnd (.seq hn hm)⟩
  | .once a, h => by
    rw [escapes] at h
    obtain ⟨n, hn⟩ := escapes_done a h
    exact ⟨_, .once hn⟩
  | .loop c _, h => by
    rw [escapes] at h
    obtain ⟨n, hn⟩ := escapes_done c h
    exact ⟨_, .loopEnd hn⟩
  | .switch p a cs, h => by
    rw [escapes, Bool.and_eq_false_iff, Bool.and_eq_false_iff] at h
    rcases h with (rfl | h) | h
    · exact ⟨_, .switchNot⟩
    · obtain ⟨n, hn⟩ := escapes_done a h
      exact ⟨_, .switchFirst hn⟩
    · obtain ⟨b, hb, n, hn⟩ := escapesAll_done cs h
      exact ⟨_, .switch hb hn⟩

theorem escapesAll_done : ∀ (cs : Cases), escapesAll cs = false → ∃ b, Case b cs ∧ ∃ n, Exec b n .done
  | .nil, h => by simp [escapesAll] at h
  | .cons a cs, h => by
    rw [escapesAll, Bool.and_eq_false_iff] at h
    rcases h with h | h
    · exact ⟨a, .inl rfl, escapes_done a h⟩
    · obtain ⟨b, hb, hn⟩ := escapesAll_done cs h
      exact ⟨b, .inr hb, hn⟩

end

end Splint.MacroParam
