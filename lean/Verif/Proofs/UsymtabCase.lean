import Verif.Proofs.Usymtab
/-! The cases of a `switch` in the symbol table. -/
namespace Splint.Symtab
open Spec

variable {S : Type}

theorem wf_names {t : Table S} {r : Stack S} (h : WF (t :: r)) : (t.entries.map (·.name)).Nodup := by
  obtain ⟨⟨o1, o2, o3, -⟩, -⟩ := h
  refine kind_cases (t := t) (fun hn => (o1 hn).1) (fun hn => ?_) (fun hn => (o3 hn).1)
  rw [o2 hn]
  exact List.nodup_nil

/-- The innermost table is that of its scope level. -/
def Lev : Stack S → Prop
  | [] => False
  | t :: r => t.level + 1 = (view (t :: r)).cur.length

theorem lev_keeps {st st' : Stack S} (h : Lev st) (hk : Keeps st st')
    (hl : (view st').cur.length = (view st).cur.length) : Lev st' := by
  cases st with
  | nil => cases h
  | cons t r =>
    cases st' with
    | nil => cases hk
    | cons t' r' =>
      have h1 : t.level + 1 = (view (t :: r)).cur.length := h
      change t'.level + 1 = (view (t' :: r')).cur.length
      rw [hk.2.1, h1, hl]

theorem over_nil {t : Table S} (h : t.entries = []) (E : Env S) : mapVis (over t) [] E = E := by
  apply mapVis_id
  intro n s _
  simp [over, Table.find, h]

theorem beneath_length {t : Table S} {r : Stack S} (h : WF (t :: r)) (hl : Lev (t :: r)) (k : Kind)
    (hk : k = .tbranch ∨ k = .cbranch ∨ k = .switch ∨ (k = .fbranch ∧ t.kind = .tbranch)) :
    t.level + 1 = (beneath k (t :: r)).length := by
  have h1 : t.level + 1 = (view (t :: r)).cur.length := hl
  rcases hk with rfl | rfl | rfl | ⟨rfl, ht⟩
  · exact h1
  · rw [h1, beneath]
    refine kind_cases (t := t) (fun hn => ?_) (fun hn => ?_) (fun hn => ?_)
    · rw [view_normal r hn]
    · rw [view_switch r hn]
    · rw [view_stops r hn]
      simp only
      split
      · next hc => rw [length_mapVis, hc]; rfl
      · rfl
  · exact h1
  · rw [h1, beneath, view_stops r (by rw [ht]; rfl), ht]
    simp only [length_mapVis]
    rfl

theorem push_normal {st : Stack S} (h : WF st) (hl : Lev st) :
    WF (push .normal st) ∧ Lev (push .normal st) ∧ (view (push .normal st)).cur = [] :: (view st).cur := by
  cases st with
  | nil => cases hl
  | cons t r =>
    have h1 : t.level + 1 = (view (t :: r)).cur.length := hl
    have hv : (view (push .normal (t :: r))).cur = [] :: (view (t :: r)).cur := by
      rw [push, view_normal _ rfl]
      rfl
    refine ⟨⟨⟨fun _ => ⟨List.nodup_nil, ?_, fun e he => by cases he⟩, ?_, ?_, ?_⟩, h⟩, ?_, hv⟩
    · simpa using h1
    · intro hx; cases hx
    · intro hx; cases hx
    · intro hx; cases hx
    · rw [push, Lev, ← push, hv]
      simpa using h1

theorem push_switch {st : Stack S} (h : WF st) (hl : Lev st) :
    WF (push .switch st) ∧ Lev (push .switch st) ∧ (view (push .switch st)).cur = (view st).cur := by
  cases st with
  | nil => cases hl
  | cons t r =>
    have h1 : t.level + 1 = (view (t :: r)).cur.length := hl
    have hv : (view (push .switch (t :: r))).cur = (view (t :: r)).cur := by
      rw [push, view_switch _ rfl]
    refine ⟨⟨⟨?_, fun _ => rfl, ?_, ?_⟩, h⟩, ?_, hv⟩
    · intro hx; cases hx
    · intro hx; cases hx
    · intro hx; cases hx
    · rw [push, Lev, ← push, hv]
      simpa using h1

theorem push_stops {t : Table S} {r : Stack S} (h : WF (t :: r)) (hl : Lev (t :: r)) (k : Kind)
    (hk : k = .tbranch ∨ k = .cbranch ∨ (k = .fbranch ∧ t.kind = .tbranch)) :
    WF (push k (t :: r)) ∧ Lev (push k (t :: r))
    ∧ (view (push k (t :: r))).cur = beneath k (t :: r) := by
  have hs : k.stops := by rcases hk with rfl | rfl | ⟨rfl, -⟩ <;> rfl
  have hn : k ≠ .normal := by rintro rfl; cases hs
  have hb := beneath_length h hl k (by tauto)
  have hv : (view (push k (t :: r))).cur = beneath k (t :: r) := by
    rw [push, view_stops _ (by exact hs)]
    exact over_nil rfl _
  refine ⟨⟨⟨fun hx => absurd hx hn, ?_, ?_, ?_⟩, h⟩, ?_, hv⟩
  · intro hx
    have : k = .switch := hx
    exact absurd hs (by rw [this]; decide)
  · intro _
    exact ⟨List.nodup_nil, fun e he => by cases he⟩
  · intro hx
    have : k = .fbranch := hx
    rcases hk with rfl | rfl | ⟨-, ht⟩
    · cases this
    · cases this
    · exact ⟨t, r, rfl, ht⟩
  · rw [push, Lev, ← push, hv]
    simpa [hn] using hb

/-! ## A row of cases -/

def AllCase (cts : Stack S) : Prop := ∀ c ∈ cts, c.kind = .cbranch

theorem cases_base {cts R : Stack S} (hc : AllCase cts) : (view (cts ++ R)).base = (view R).base := by
  induction cts with
  | nil => rfl
  | cons c cts ih =>
    have hk := hc c (by simp)
    rw [List.cons_append, view_stops _ (by rw [hk]; rfl), hk]
    simp only [if_true]
    exact ih fun c h => hc c (by simp [h])

theorem cases_cur {c : Table S} {cts R : Stack S} (hc : AllCase (c :: cts)) :
    (view (c :: (cts ++ R))).cur = mapVis (over c) [] (view R).base := by
  have hk := hc c (by simp)
  rw [view_stops _ (by rw [hk]; rfl), hk]
  simp only [beneath]
  rw [cases_base fun c h => hc c (by simp [h])]

theorem wf_cases {cts R : Stack S} (hc : AllCase cts) :
    WF (cts ++ R) ↔ WF R ∧ ∀ c ∈ cts, Over c (view R).base := by
  induction cts with
  | nil => simp
  | cons c cts ih =>
    have hk := hc c (by simp)
    have hc' : AllCase cts := fun c h => hc c (by simp [h])
    rw [List.cons_append, WF, ih hc', Ok, hk]
    have hb : beneath .cbranch (cts ++ R) = (view R).base := by
      simp only [beneath]
      exact cases_base hc'
    rw [hb]
    simp [Kind.stops]
    tauto

theorem over_nil_frame {t : Table S} {E : Env S} (h : Over t ([] :: E)) : Over t E := h

/-! ## Looking up and changing, in the table of a branch -/

theorem update_top {l : Table S} {r : Stack S} (h : WF (l :: r)) (hs : l.kind.stops) (k : Nat)
    (f : S → S) :
    ∃ l', update k f (l :: r) = l' :: r ∧ l'.kind = l.kind ∧ l'.escape = l.escape
      ∧ (∀ n, n ≠ k → l'.find n = l.find n)
      ∧ (∀ s ref, get k (view (l :: r)).cur = some (s, ref) → ∃ e, l'.find k = some e ∧ e.state = f s)
      ∧ (get k (view (l :: r)).cur = none → l' = l) := by
  have key : ∀ (t : Table S), WF (t :: r) → ∀ i e, t.find k = some e → t.entries[i]? = some e →
      e.name = k → (∀ n, n ≠ k → (t.setAt i f).find n = t.find n)
        ∧ (t.setAt i f).find k = some { e with state := f e.state } := by
    intro t ht i e h2 h3 hk
    have hf : ∀ n, (t.setAt i f).find n = (t.find n).map
        fun e => if e.name = k then { e with state := f e.state } else e := by
      intro n
      rw [Table.find, setAt_entries (wf_names ht) h3 hk, find_map_state]
      rfl
    refine ⟨?_, by rw [hf, h2]; simp [hk]⟩
    intro n hn
    rw [hf]
    rcases find_cases t n with ⟨-, g2, -⟩ | ⟨_, e', -, g2, -, g4, -⟩
    · rw [g2]
      rfl
    · rw [g2]
      have : e'.name ≠ k := by rw [g4]; exact hn
      simp [this]
  rw [update, lookup]
  rcases find_cases l k with ⟨g1, g2, g3⟩ | ⟨i, e, g1, g2, g6, g4, g5⟩
  · rw [g1]
    simp only [hs, if_true]
    rw [addRefEntry, search_get k _ h]
    cases hg : get k (view (l :: r)).cur with
    | none => exact ⟨l, rfl, rfl, rfl, fun _ _ => rfl, fun _ _ hx => (by cases hx), fun _ => rfl⟩
    | some p =>
      obtain ⟨s, ref⟩ := p
      obtain ⟨a1, a2, a3, a4, a5, a6⟩ := add_ref h hs g2 g3 hg
      obtain ⟨k1, k2⟩ := key _ a1 l.entries.length _ a5 (by simp) rfl
      refine ⟨_, rfl, rfl, rfl, fun n hn => (k1 n hn).trans (a6 n hn), ?_, fun hx => (by cases hx)⟩
      intro s' ref' hx
      cases hx
      exact ⟨_, k2, rfl⟩
  · rw [g1]
    have hg := get_found h g1 g2 g4 g5
    obtain ⟨k1, k2⟩ := key _ h i e g2 g6 g4
    refine ⟨_, rfl, rfl, rfl, k1, ?_, fun hx => ?_⟩
    · intro s' ref' hx
      rw [hg] at hx
      cases hx
      exact ⟨_, k2, rfl⟩
    · rw [hg] at hx
      cases hx

/-- A table has entries for all the variables another one has, that allow for more. -/
def Cov (le : S → S → Prop) (c l : Table S) : Prop :=
  ∀ n e, c.find n = some e → ∃ e', l.find n = some e' ∧ le e.state e'.state

theorem cov_refl {le : S → S → Prop} (hr : ∀ a, le a a) (c : Table S) : Cov le c c :=
  fun _ e h => ⟨e, h, hr _⟩

theorem cov_trans {le : S → S → Prop} (ht : ∀ a b c, le a b → le b c → le a c) {a b c : Table S}
    (h : Cov le a b) (h' : Cov le b c) : Cov le a c := by
  intro n e he
  obtain ⟨e1, h1, l1⟩ := h n e he
  obtain ⟨e2, h2, l2⟩ := h' n e1 h1
  exact ⟨e2, h2, ht _ _ _ l1 l2⟩

theorem updates_top (f : Entry S → S → S) (es : List (Entry S)) {l : Table S} {r : Stack S}
    (h : WF (l :: r)) (hs : l.kind.stops) :
    ∃ l', updates f es (l :: r) = l' :: r ∧ WF (l' :: r) ∧ l'.kind = l.kind ∧ l'.escape = l.escape
      ∧ (∀ n, n ∉ es.map (·.name) → l'.find n = l.find n)
      ∧ (∀ n, (get n (view (l' :: r)).cur).map (·.2) = (get n (view (l :: r)).cur).map (·.2))
      ∧ (∀ le : S → S → Prop, (∀ a, le a a) → (∀ a b c, le a b → le b c → le a c) →
          (∀ e ∈ es, ∀ s, le s (f e s)) → Cov le l l')
      ∧ ((es.map (·.name)).Nodup → ∀ e ∈ es, get e.name (view (l :: r)).cur ≠ none →
          ∃ s e', l'.find e.name = some e' ∧ e'.state = f e s) := by
  induction es generalizing l with
  | nil =>
    exact ⟨l, rfl, h, rfl, rfl, fun _ _ => rfl, fun _ => rfl, fun le hr _ _ => cov_refl hr l,
      fun _ e he => (by cases he)⟩
  | cons e es ih =>
    obtain ⟨l1, u1, u2, u3, u4, u5, u6⟩ := update_top h hs e.name (f e)
    obtain ⟨w1, w2, -⟩ := update_spec e.name (f e) (l :: r) h
    rw [u1] at w1 w2
    obtain ⟨l2, v1, v2, v3, v4, v5, v6, v7, v8⟩ := ih w1 (by rw [u2]; exact hs)
    have hget : ∀ n, (get n (view (l1 :: r)).cur).map (·.2) = (get n (view (l :: r)).cur).map (·.2) := by
      intro n
      rw [get_resolve, get_resolve, w2, names_assign]
    refine ⟨l2, by rw [updates, u1, v1], v2, v3.trans u2, v4.trans u3, ?_, ?_, ?_, ?_⟩
    · intro n hn
      rw [List.map_cons, List.mem_cons, not_or] at hn
      rw [v5 n hn.2, u4 n hn.1]
    · intro n
      rw [v6, hget]
    · intro le hr ht hf
      refine cov_trans ht ?_ (v7 le hr ht fun a ha => hf a (by simp [ha]))
      intro n a ha
      by_cases hn : n = e.name
      · subst hn
        rcases find_cases l e.name with ⟨-, g2, -⟩ | ⟨i, e', g1, g2, -, g4, g5⟩
        · rw [g2] at ha; cases ha
        · rw [g2] at ha
          cases ha
          have hg := get_found h g1 g2 g4 g5
          obtain ⟨b, hb1, hb2⟩ := u5 _ _ hg
          exact ⟨b, hb1, by rw [hb2]; exact hf e (by simp) _⟩
      · exact ⟨a, by rw [u4 n hn]; exact ha, hr _⟩
    · intro hn a ha hg
      rw [List.map_cons, List.nodup_cons] at hn
      rcases List.mem_cons.1 ha with rfl | ha
      · cases hg' : get a.name (view (l :: r)).cur with
        | none => exact absurd hg' hg
        | some p =>
          obtain ⟨b, hb1, hb2⟩ := u5 p.1 p.2 hg'
          exact ⟨p.1, b, by rw [v5 _ hn.1]; exact hb1, hb2⟩
      · refine v8 hn.2 a ha ?_
        intro hx
        have := hget a.name
        rw [hx] at this
        cases hg' : get a.name (view (l :: r)).cur with
        | none => exact hg hg'
        | some p => rw [hg'] at this; cases this

/-! ## `usymtab_exitSwitch` -/

theorem mergeCase_spec (o : Ops S) (last : Bool) (outer : List (Entry S)) {l t : Table S}
    {ts R : Stack S} (hc : AllCase (l :: t :: ts)) (h : WF (l :: t :: (ts ++ R))) :
    ∃ l', mergeCase o last outer (l :: t :: (ts ++ R)) = l' :: (ts ++ R)
      ∧ AllCase (l' :: ts) ∧ WF (l' :: (ts ++ R))
      ∧ ∀ le, Merges le o → (last = false → Cov le l l') ∧ (t.escape = false → Cov le t l') := by
  have hl : l.kind = .cbranch := hc l (by simp)
  have ht : t.kind = .cbranch := hc t (by simp)
  have hcts : AllCase ts := fun c h => hc c (by simp [h])
  have htn : (t.entries.map (·.name)).Nodup := wf_names h.2
  have hbound : ∀ l : Table S, l.kind = .cbranch → WF (l :: t :: (ts ++ R)) → ∀ e ∈ t.entries,
      get e.name (view (l :: t :: (ts ++ R))).cur ≠ none := by
    intro l hl _ e he hg
    have hot := ((wf_cases (cts := l :: t :: ts) (R := R)
      (by intro c hx; rcases List.mem_cons.1 hx with rfl | hx; exacts [hl, hc c (List.mem_cons_of_mem _ hx)])).1
      (by assumption)).2 t (by simp)
    obtain ⟨h1, h2⟩ := hot.2 e he
    have hcur := cases_cur (c := l) (cts := t :: ts) (R := R)
      (by intro c hx; rcases List.mem_cons.1 hx with rfl | hx; exacts [hl, hc c (List.mem_cons_of_mem _ hx)])
    rw [List.cons_append] at hcur
    have : resolve e.name (names (view R).base) = none := by
      rw [← names_mapVis (over l) [], ← hcur, ← get_resolve, hg]
      rfl
    rw [h2, this] at h1
    cases h1
  obtain ⟨l1, a1, a2, a3, a4, a5, a6, a7, a8⟩ := updates_top
    (fun c old => if last then c.state else if t.escape then old else o.join old c.state)
    t.entries h (by rw [hl]; rfl)
  have hl1 : l1.kind = .cbranch := a3.trans hl
  have hfin : ∃ l2, (if t.escape || t.mustBreak then l1 :: t :: (ts ++ R) else
      updates (fun c old => o.join old c.state) (outer.filter fun c => (t.find c.name).isNone)
        (l1 :: t :: (ts ++ R))) = l2 :: t :: (ts ++ R) ∧ l2.kind = .cbranch
        ∧ WF (l2 :: t :: (ts ++ R)) ∧ ∀ le, Merges le o → Cov le l1 l2 := by
    by_cases hb : (t.escape || t.mustBreak) = true
    · rw [if_pos hb]
      exact ⟨l1, rfl, hl1, a2, fun le hm => cov_refl hm.refl _⟩
    · rw [if_neg hb]
      obtain ⟨l2, b1, b2, b3, -, -, -, b7, -⟩ := updates_top (fun c old => o.join old c.state)
        (outer.filter fun c => (t.find c.name).isNone) a2 (by rw [hl1]; rfl)
      exact ⟨l2, b1, b3.trans hl1, b2,
        fun le hm => b7 le hm.refl hm.trans fun e _ s => hm.left _ _⟩
  obtain ⟨l2, c1, c2, c3, c4⟩ := hfin
  refine ⟨l2, ?_, ?_, ?_, ?_⟩
  · rw [mergeCase, a1]
    simp only [c1]
  · intro c hx
    rcases List.mem_cons.1 hx with rfl | hx
    · exact c2
    · exact hcts c hx
  · have hA : AllCase (l2 :: t :: ts) := by
      intro c hx
      rcases List.mem_cons.1 hx with rfl | hx
      · exact c2
      · exact hc c (List.mem_cons_of_mem _ hx)
    have hw := (wf_cases (R := R) hA).1 c3
    refine (wf_cases (cts := l2 :: ts) (R := R) ?_).2 ⟨hw.1, ?_⟩
    · intro c hx
      exact hA c (by simp at hx ⊢; tauto)
    · intro c hx
      exact hw.2 c (by simp at hx ⊢; tauto)
  · intro le hm
    refine ⟨fun hlast => cov_trans hm.trans ?_ (c4 le hm), fun he => cov_trans hm.trans ?_ (c4 le hm)⟩
    · refine a7 le hm.refl hm.trans ?_
      intro e _ s
      simp only [hlast]
      split
      · next hx => cases hx
      · split
        · exact hm.refl _
        · exact hm.left _ _
    · intro n e hfe
      rcases find_cases t n with ⟨-, g2, -⟩ | ⟨i, e', g1, g2, -, g4, g5⟩
      · rw [g2] at hfe; cases hfe
      · rw [g2] at hfe
        cases hfe
        obtain ⟨s, e2, hf2, hs2⟩ := a8 htn e g5 (hbound l hl h e g5)
        rw [g4] at hf2
        refine ⟨e2, hf2, ?_⟩
        rw [hs2]
        simp only [he]
        split
        · exact hm.refl _
        · simpa using hm.right _ _

theorem mergeCases_spec (o : Ops S) (outer : List (Entry S)) (ts : Stack S) (last : Bool)
    {l : Table S} {R : Stack S} (hc : AllCase (l :: ts)) (h : WF (l :: (ts ++ R))) :
    ∃ l', mergeCases o outer ts.length last (l :: (ts ++ R)) = l' :: R
      ∧ l'.kind = .cbranch ∧ WF (l' :: R)
      ∧ ∀ le, Merges le o → (last = false → Cov le l l')
        ∧ ∀ t ∈ ts, t.escape = false → Cov le t l' := by
  induction ts generalizing l last with
  | nil =>
    exact ⟨l, rfl, hc l (by simp), h, fun le hm => ⟨fun _ => cov_refl hm.refl _, fun t ht => (by cases ht)⟩⟩
  | cons t ts ih =>
    obtain ⟨l1, a1, a2, a3, a4⟩ := mergeCase_spec o last outer hc h
    obtain ⟨l2, b1, b2, b3, b4⟩ := ih false a2 a3
    refine ⟨l2, ?_, b2, b3, ?_⟩
    · rw [List.length_cons, mergeCases, List.cons_append, a1, b1]
    · intro le hm
      obtain ⟨p1, p2⟩ := a4 le hm
      obtain ⟨q1, q2⟩ := b4 le hm
      refine ⟨fun hx => cov_trans hm.trans (p1 hx) (q1 rfl), ?_⟩
      intro u hu he
      rcases List.mem_cons.1 hu with rfl | hu
      · exact cov_trans hm.trans (p2 he) (q1 rfl)
      · exact q2 u hu he

theorem takeWhile_cases {cts : Stack S} (hc : AllCase cts) {u : Table S} (hu : u.kind ≠ .cbranch)
    (r : Stack S) : (cts ++ u :: r).takeWhile (·.kind == .cbranch) = cts := by
  induction cts with
  | nil => rw [List.nil_append, List.takeWhile_cons, if_neg (by simpa using hu)]
  | cons c cts ih =>
    rw [List.cons_append, List.takeWhile_cons, if_pos (by simp [hc c (by simp)]),
      ih fun c h => hc c (by simp [h])]

theorem dropWhile_cases {cts : Stack S} (hc : AllCase cts) {u : Table S} (hu : u.kind ≠ .cbranch)
    (r : Stack S) : (cts ++ u :: r).dropWhile (·.kind == .cbranch) = u :: r := by
  induction cts with
  | nil => rw [List.nil_append, List.dropWhile_cons, if_neg (by simpa using hu)]
  | cons c cts ih =>
    rw [List.cons_append, List.dropWhile_cons, if_pos (by simp [hc c (by simp)]),
      ih fun c h => hc c (by simp [h])]

theorem exitSwitch_spec (o : Ops S) (all : Bool) {cts out : Stack S} {sw : Table S}
    (hc : AllCase cts) (hne : cts ≠ []) (hsw : sw.kind = .switch) (hout : out ≠ [])
    (h : WF (cts ++ sw :: out)) :
    ∃ out', exitSwitch o all (cts ++ sw :: out) = some out' ∧ WF out' ∧ Keeps out out'
      ∧ names (view out').cur = names (view out).cur
      ∧ (all = false → ∀ le, Merges le o →
          (∀ E, Below le E (view out).cur → Below le E (view out').cur)
          ∧ ∀ c ∈ cts, c.escape = false → ∀ E, Below le E (mapVis (over c) [] (view out).cur) →
              Below le E (view out').cur) := by
  cases cts with
  | nil => exact absurd rfl hne
  | cons l ts =>
    cases out with
    | nil => exact absurd rfl hout
    | cons top r =>
      have hws := (wf_cases hc).1 h
      obtain ⟨l', a1, a2, a3, a4⟩ := mergeCases_spec o top.entries ts
        l.escape (R := sw :: top :: r) hc h
      have hl'n := wf_names a3
      obtain ⟨b1, b2, b3⟩ := updates_spec
        (fun e old => if all then e.state else o.join old e.state) l'.entries hl'n (top :: r) hws.1.2
      refine ⟨_, ?_, b1, b3, by rw [b2, names_mapVis], ?_⟩
      · rw [exitSwitch, takeWhile_cases hc (by rw [hsw]; decide)]
        rw [List.drop_left]
        simp only [hsw, if_true, List.length_cons]
        rw [List.cons_append]
        simp only [List.head?_cons, Option.map_some, Option.getD_some, a1]
      · intro hall le hm
        have hself : ∀ n s, le s (apply (fun e old => if all then e.state else o.join old e.state)
            l'.entries n s) := by
          intro n s
          unfold apply
          split
          · simpa [hall] using hm.left _ _
          · exact hm.refl _
        refine ⟨?_, ?_⟩
        · intro E hE
          rw [b2]
          refine below_trans hm.trans hE ?_
          conv_lhs => rw [← mapVis_id (h := fun _ s => s) (seen := []) (E := (view (top :: r)).cur)
            (fun _ _ _ => rfl)]
          exact mapVis_le_self hm.refl hself [] _
        · intro c hcm he E hE
          rw [b2]
          refine below_trans hm.trans hE (mapVis_le_self hm.refl ?_ [] _)
          have hcov : Cov le c l' := by
            obtain ⟨p1, p2⟩ := a4 le hm
            rcases List.mem_cons.1 hcm with rfl | hcm
            · exact p1 he
            · exact p2 c hcm he
          intro n s
          unfold over
          split
          · next e hfe =>
            obtain ⟨e', h1, h2⟩ := hcov n e hfe
            have h1' : l'.entries.find? (·.name == n) = some e' := h1
            unfold apply
            rw [h1']
            simp only [hall]
            exact hm.trans _ _ _ h2 (by simpa using hm.right _ _)
          · exact hself n s

/-! ## `usymtab_newCase` -/

/-- The entries of a case that the one before falls through to. -/
theorem newCase_fold (o : Ops S) (es acc : List (Entry S)) (st : Stack S) (h : WF st) (E : Env S)
    (hE : (view st).cur = E) :
    ∃ st', es.foldl (caseStep o) (acc, st)
      = (acc ++ es.map (fun e => { e with state := match get e.name E with
          | some p => o.join e.state p.1 | none => e.state }), st')
      ∧ WF st' ∧ view st' = view st ∧ Keeps st st' := by
  induction es generalizing acc st with
  | nil => exact ⟨st, by simp, h, rfl, keeps_refl st⟩
  | cons e es ih =>
    have hF := lookup_found e.name st h
    set q := lookup e.name st with hq
    clear_value q
    obtain ⟨st1, p⟩ := q
    obtain ⟨wf1, v1, k1, n1, s1, -⟩ := hF
    simp only at wf1 v1 k1 n1 s1
    have hhead : caseStep o (acc, st) e
        = (acc ++ [{ e with state := match get e.name E with
          | some p => o.join e.state p.1 | none => e.state }], st1) := by
      rw [caseStep]
      simp only [← hq]
      cases p with
      | none =>
        rw [← hE, n1 rfl]
        rfl
      | some p =>
        obtain ⟨s, r, g1, g2, -⟩ := s1 p rfl
        rw [← hE, g1]
        rw [stateAt_eq] at g2
        simp only [Option.bind_some]
        cases hx : (st1[p.depth]?).bind fun u => u.entries[p.index]? with
        | none => rw [hx] at g2; cases g2
        | some old =>
          rw [hx] at g2
          simp only [Option.map_some, Option.some.injEq] at g2
          simp [g2]
    obtain ⟨st2, i1, i2, i3, i4⟩ := ih (acc ++ [{ e with state := match get e.name E with
          | some p => o.join e.state p.1 | none => e.state }]) st1 wf1 (by rw [v1]; exact hE)
    refine ⟨st2, ?_, i2, i3.trans v1, keeps_trans k1 i4⟩
    rw [List.foldl_cons, hhead, i1]
    simp

/-- What a new case does. -/
def NewCase (o : Ops S) (cts rest : Stack S) : Prop :=
    ∃ c cs rest', newCase o (cts ++ rest) = some (c :: (cs ++ rest'))
      ∧ AllCase (c :: cs) ∧ c.mustBreak = false ∧ c.escape = false
      ∧ WF (c :: (cs ++ rest')) ∧ Lev (c :: (cs ++ rest'))
      ∧ view rest' = view rest ∧ Keeps rest rest'
      ∧ (∀ d ∈ cts, d.mustBreak = true → d ∈ cs) ∧ cs <:+ cts
      ∧ (∀ le, Merges le o →
          (∀ E, Below le E (view rest).cur → Below le E (mapVis (over c) [] (view rest).cur))
          ∧ ∀ d ds, cts = d :: ds → d.mustBreak = false → d.escape = false → ∀ E,
              Below le E (mapVis (over d) [] (view rest).cur) →
              Below le E (mapVis (over c) [] (view rest).cur))

theorem newCase_spec (o : Ops S) {cts rest : Stack S} {n : Table S} {r : Stack S}
    (hr : rest = n :: r) (hn : n.kind = .normal) (hc : AllCase cts) (h : WF (cts ++ rest))
    (hl : Lev (cts ++ rest)) :
    NewCase o cts rest := by
  have hbase : (view rest).base = (view rest).cur := by rw [hr, view_normal r hn]
  have hncase : n.kind ≠ .cbranch := by rw [hn]; decide
  have hws := (wf_cases hc).1 h
  -- a new branch
  have hpush : newCase o (cts ++ rest) = some (push .cbranch (cts ++ rest)) →
      (∀ d ds, cts = d :: ds → ¬ (d.mustBreak = false ∧ d.escape = false)) →
      NewCase o cts rest := by
    intro hnew hopen
    refine ⟨(push .cbranch (cts ++ rest)).head (by simp [push]), cts, rest, ?_, ?_, rfl, rfl, ?_, ?_, rfl,
      keeps_refl _, fun d hd _ => hd, List.suffix_refl _, ?_⟩
    · rw [hnew]
      rfl
    · intro c hx
      rcases List.mem_cons.1 hx with rfl | hx
      · rfl
      · exact hc c hx
    · obtain ⟨t, r', htr⟩ : ∃ t r', cts ++ rest = t :: r' := by
        cases hx : cts ++ rest with
        | nil => rw [hx] at hl; cases hl
        | cons t r' => exact ⟨t, r', rfl⟩
      rw [htr] at h hl ⊢
      exact (push_stops h hl .cbranch (by tauto)).1
    · obtain ⟨t, r', htr⟩ : ∃ t r', cts ++ rest = t :: r' := by
        cases hx : cts ++ rest with
        | nil => rw [hx] at hl; cases hl
        | cons t r' => exact ⟨t, r', rfl⟩
      rw [htr] at h hl ⊢
      exact (push_stops h hl .cbranch (by tauto)).2.1
    · intro le hm
      refine ⟨?_, ?_⟩
      · intro E hE
        rw [over_nil]
        · exact hE
        · rfl
      · intro d ds hx h1 h2
        exact absurd ⟨h1, h2⟩ (hopen d ds hx)
  cases cts with
  | nil =>
    refine hpush ?_ (fun d ds hx => by cases hx)
    rw [hr, List.nil_append, newCase, if_neg (by simp [hn])]
  | cons d ds =>
    have hd : d.kind = .cbranch := hc d (by simp)
    have hds : AllCase ds := fun c hx => hc c (by simp [hx])
    by_cases ho : d.mustBreak = false ∧ d.escape = false
    · -- falling through
      obtain ⟨st', f1, f2, f3, f4⟩ := newCase_fold o d.entries [] rest hws.1 _ rfl
      have hdO : Over d (view rest).cur := by rw [← hbase]; exact hws.2 d (by simp)
      set g : Entry S → Entry S := fun e => { e with state := match get e.name (view rest).cur with
          | some p => o.join e.state p.1 | none => e.state } with hg
      have hfind : ∀ n, (d.entries.map g).find? (·.name == n) = (d.find n).map g := by
        intro n
        rw [List.find?_map]
        rfl
      let c : Table S := { d with entries := d.entries.map g }
      have hover : mapVis (over c) [] (view rest).cur = mapVis (fun n x => match d.find n with
          | some e => o.join e.state x | none => x) [] (view rest).cur := by
        apply mapVis_congr (wf_nodup hws.1).1
        intro n s ref _ hgn
        have : c.find n = (d.find n).map g := hfind n
        unfold over
        rw [this]
        rcases find_cases d n with ⟨-, g2, -⟩ | ⟨_, e', -, g2, -, g4, -⟩
        · rw [g2]
          rfl
        · rw [g2]
          simp [hg, g4, hgn]
      have hAll : AllCase (c :: ds) := by
        intro x hx
        rcases List.mem_cons.1 hx with rfl | hx
        · exact hd
        · exact hds x hx
      have hcO : Over c (view rest).base := by
        rw [hbase]
        refine ⟨?_, ?_⟩
        · have : (d.entries.map g).map (·.name) = d.entries.map (·.name) := by
            simp [hg, Function.comp_def]
          simp only [c]
          rw [this]
          exact hdO.1
        · intro e he
          obtain ⟨a, ha, rfl⟩ := List.mem_map.1 he
          exact hdO.2 a ha
      have hw : WF (c :: (ds ++ st')) := by
        refine (wf_cases (cts := c :: ds) (R := st') hAll).2 ⟨f2, ?_⟩
        intro x hx
        rw [f3]
        rcases List.mem_cons.1 hx with rfl | hx
        · exact hcO
        · exact hws.2 x (by simp [hx])
      refine ⟨c, ds, st', ?_, hAll, ho.1, ho.2, hw, ?_, f3, f4, ?_, List.suffix_cons _ _, ?_⟩
      · rw [List.cons_append, newCase, if_pos (by simp [ho.1, ho.2, hd])]
        have h1 := dropWhile_cases hds hncase r
        have h2 := takeWhile_cases hds hncase r
        rw [← hr] at h1 h2
        rw [h1, h2]
        simp only
        rw [f1]
        rfl
      · have h1 : d.level + 1 = (view (d :: (ds ++ rest))).cur.length := hl
        change d.level + 1 = (view (c :: (ds ++ st'))).cur.length
        rw [cases_cur hAll, length_mapVis, f3, h1, cases_cur hc, length_mapVis]
      · intro x hx hb
        rcases List.mem_cons.1 hx with rfl | hx
        · rw [ho.1] at hb; cases hb
        · exact hx
      · intro le hm
        rw [hover]
        refine ⟨?_, ?_⟩
        · intro E hE
          refine below_trans hm.trans hE ?_
          conv_lhs => rw [← mapVis_id (h := fun _ s => s) (seen := []) (E := (view rest).cur)
            (fun _ _ _ => rfl)]
          refine mapVis_le_self hm.refl ?_ [] _
          intro n s
          cases d.find n
          · exact hm.refl _
          · exact hm.right _ _
        · intro d' ds' hx _ _ E hE
          cases hx
          refine below_trans hm.trans hE (mapVis_le_self hm.refl ?_ [] _)
          intro n s
          unfold over
          cases d.find n
          · exact hm.refl _
          · exact hm.left _ _
    · refine hpush ?_ (fun d' ds' hx => by cases hx; exact ho)
      rw [List.cons_append, newCase, if_neg]
      intro hx
      simp at hx
      exact ho hx.1

end Splint.Symtab
