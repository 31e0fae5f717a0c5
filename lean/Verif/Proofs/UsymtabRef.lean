import Verif.Proofs.UsymtabRun
/-! Finding variables by their references. -/
namespace Splint.Symtab
open Spec

variable {S : Type}

def scopes : Stack S → Nat
  | [] => 0
  | t :: r => (if t.kind = .normal then 1 else 0) + scopes r

def Leveled : Stack S → Prop
  | [] => True
  | t :: r => t.level + 1 = scopes (t :: r) ∧ Leveled r

theorem view_length {st : Stack S} (h : WF st) :
    (view st).cur.length = scopes st ∧ (view st).base.length = scopes st
    ∧ (view st).under.length = scopes st.tail := by
  induction st with
  | nil => exact ⟨rfl, rfl, rfl⟩
  | cons t r ih =>
    obtain ⟨ho, hw⟩ := h
    obtain ⟨i1, i2, i3⟩ := ih hw
    refine kind_cases (t := t) (fun hk => ?_) (fun hk => ?_) (fun hk => ?_)
    · rw [view_normal r hk]
      simp [scopes, hk, i1]
      omega
    · rw [view_switch r hk]
      simp [scopes, hk, i1]
    · have hb : (beneath t.kind r).length = scopes r := by
        unfold beneath
        split
        · next hf =>
          obtain ⟨u, r', rfl, hu⟩ := ho.2.2.2 hf
          rw [i3]
          simp [scopes, hu]
        · exact i2
        · exact i1
      have hn : t.kind ≠ .normal := by intro hx; rw [hx] at hk; cases hk
      rw [view_stops r hk]
      refine ⟨?_, ?_, ?_⟩
      · simp [length_mapVis, hb, scopes, hn]
      · simp only
        split
        · simp [i2, scopes, hn]
        · simp [length_mapVis, hb, scopes, hn]
      · simpa using i1

theorem keeps_scopes {st st' : Stack S} (h : Keeps st st') : scopes st' = scopes st := by
  induction st generalizing st' with
  | nil =>
    cases st' with
    | nil => rfl
    | cons => cases h
  | cons t r ih =>
    cases st' with
    | nil => cases h
    | cons t' r' =>
      obtain ⟨a1, -, -, -, a5⟩ := h
      have : scopes r' = scopes r := by
        split at a5
        · rw [a5]
        · exact ih a5
      rw [scopes, scopes, a1, this]

theorem keeps_leveled {st st' : Stack S} (h : Keeps st st') (hl : Leveled st) : Leveled st' := by
  induction st generalizing st' with
  | nil =>
    cases st' with
    | nil => trivial
    | cons => cases h
  | cons t r ih =>
    cases st' with
    | nil => cases h
    | cons t' r' =>
      have hs := keeps_scopes h
      obtain ⟨-, a2, -, -, a5⟩ := h
      refine ⟨by rw [a2, hs]; exact hl.1, ?_⟩
      split at a5
      · rw [a5]; exact hl.2
      · exact ih a5 hl.2

theorem leveled_lev {st : Stack S} (hw : WF st) (hl : Leveled st) (hne : st ≠ []) : Lev st := by
  cases st with
  | nil => exact absurd rfl hne
  | cons t r =>
    change t.level + 1 = _
    rw [(view_length hw).1]
    exact hl.1

theorem leveled_push {k : Kind} {st : Stack S} (hl : Leveled st) (hne : st ≠ []) :
    Leveled (push k st) := by
  cases st with
  | nil => exact absurd rfl hne
  | cons t r =>
    refine ⟨?_, hl⟩
    have := hl.1
    simp only [scopes] at this ⊢
    split <;> simp_all <;> omega

theorem scopes_cases {cts R : Stack S} (hc : AllCase cts) : scopes (cts ++ R) = scopes R := by
  induction cts with
  | nil => rfl
  | cons c cts ih =>
    rw [List.cons_append, scopes, ih fun c h => hc c (by simp [h]), hc c (by simp)]
    simp

theorem leveled_cases {cts R : Stack S} (hc : AllCase cts) :
    Leveled (cts ++ R) ↔ Leveled R ∧ ∀ c ∈ cts, c.level + 1 = scopes R := by
  induction cts with
  | nil => simp
  | cons c cts ih =>
    have hc' : AllCase cts := fun c h => hc c (by simp [h])
    have hs : scopes (c :: (cts ++ R)) = scopes R := scopes_cases (cts := c :: cts) hc
    rw [List.cons_append, Leveled, ih hc', hs]
    simp
    tauto

theorem tables_view (E : Env S) : (view (tables E)).cur = E := by
  induction E with
  | nil => rfl
  | cons fr r ih =>
    rw [tables, view_normal _ rfl]
    simp [frame, ih, Function.comp_def]

theorem tables_wf {E : Env S} (hn : NodupE E) : WF (tables E) ∧ Leveled (tables E)
    ∧ scopes (tables E) = E.length := by
  induction E with
  | nil => exact ⟨trivial, trivial, rfl⟩
  | cons fr r ih =>
    obtain ⟨i1, i2, i3⟩ := ih fun f hf => hn f (by simp [hf])
    have hs : scopes (tables (fr :: r)) = (fr :: r).length := by
      rw [tables, scopes, i3]
      simp
      omega
    refine ⟨⟨⟨fun _ => ⟨?_, ?_, ?_⟩, ?_, ?_, ?_⟩, i1⟩, ⟨?_, i2⟩, hs⟩
    · simpa [Function.comp_def] using hn fr (by simp)
    · simp [tables_view]
    · intro e he
      obtain ⟨p, -, rfl⟩ := List.mem_map.1 he
      rfl
    · intro hx; cases hx
    · intro hx; cases hx
    · intro hx; cases hx
    · rw [← tables, hs]
      rfl

theorem setEnd_spec {st : Stack S} (e : End) (hw : WF st) (hl : Leveled st) (hne : st ≠ []) :
    WF (setEnd e st) ∧ Leveled (setEnd e st) ∧ setEnd e st ≠ []
    ∧ (view (setEnd e st)).cur = (view st).cur := by
  cases st with
  | nil => exact absurd rfl hne
  | cons t r =>
    cases e <;> exact ⟨hw, hl, by simp [setEnd], rfl⟩

theorem reached_wf {o : Ops S} {E : Env S} (hn : NodupE E) (hne : E ≠ []) {st : Stack S}
    (h : Reached o E st) : WF st ∧ Leveled st ∧ st ≠ [] := by
  induction h with
  | start =>
    obtain ⟨h1, h2, -⟩ := tables_wf hn
    refine ⟨h1, h2, ?_⟩
    cases E with
    | nil => exact absurd rfl hne
    | cons => simp [tables]
  | @stmt st st' d p _ hp hd hr ih =>
    obtain ⟨i1, i2, i3⟩ := ih
    obtain ⟨st'', hg⟩ := run_good o p d st i1 (leveled_lev i1 i2 i3) hd hp
    have := hg.run
    rw [hr] at this
    cases this
    refine ⟨hg.wf, keeps_leveled hg.keeps i2, ?_⟩
    rintro rfl
    have := hg.keeps
    cases st with
    | nil => exact i3 rfl
    | cons => cases this
  | block _ ih =>
    obtain ⟨i1, i2, i3⟩ := ih
    exact ⟨(push_normal i1 (leveled_lev i1 i2 i3)).1, leveled_push i2 i3, by simp [push]⟩
  | branch _ ih =>
    obtain ⟨i1, i2, i3⟩ := ih
    obtain ⟨t, r, rfl⟩ := lev_cons (leveled_lev i1 i2 i3)
    exact ⟨(push_stops i1 (leveled_lev i1 i2 i3) .tbranch (by tauto)).1, leveled_push i2 i3,
      by simp [push]⟩
  | other _ ha ih =>
    obtain ⟨i1, i2, i3⟩ := ih
    obtain ⟨t, r, rfl⟩ := lev_cons (leveled_lev i1 i2 i3)
    rw [altBranch] at ha
    split at ha
    · next ht =>
      cases ha
      exact ⟨(push_stops i1 (leveled_lev i1 i2 i3) .fbranch (by tauto)).1, leveled_push i2 i3,
        by simp [push]⟩
    · cases ha
  | switch _ ih =>
    obtain ⟨i1, i2, i3⟩ := ih
    have p := push_switch i1 (leveled_lev i1 i2 i3)
    exact ⟨(push_normal p.1 p.2.1).1, leveled_push (leveled_push i2 i3) (by simp [push]),
      by simp [push]⟩
  | @case cts n r st' _ hc hk hnew ih =>
    obtain ⟨i1, i2, i3⟩ := ih
    obtain ⟨c, cs, rest', a1, a2, -, -, a5, a6, -, a8, -, a10, -⟩ :=
      newCase_spec o rfl hk hc i1 (leveled_lev i1 i2 i3)
    rw [hnew] at a1
    cases a1
    refine ⟨a5, ?_, by simp⟩
    have hl := (leveled_cases hc).1 i2
    have hsc := keeps_scopes a8
    refine (leveled_cases (cts := c :: cs) a2).2 ⟨keeps_leveled a8 hl.1, ?_⟩
    intro x hx
    rcases List.mem_cons.1 hx with rfl | hx
    · have h1 : x.level + 1 = (view (x :: (cs ++ rest'))).cur.length := a6
      rw [h1, (view_length a5).1]
      exact scopes_cases (cts := x :: cs) a2
    · rw [hsc]
      exact hl.2 x (a10.subset hx)
  | endCase _ ih =>
    obtain ⟨i1, i2, i3⟩ := ih
    obtain ⟨h1, h2, h3, -⟩ := setEnd_spec _ i1 i2 i3
    exact ⟨h1, h2, h3⟩

theorem known_get {st : Stack S} (h : WF st) (x : Nat) : known x st = (get x (view st).cur).map (·.1) := by
  have hF := lookup_found x st h
  unfold known
  cases hq : (lookup x st).2 with
  | none => rw [hF.none hq]; rfl
  | some q =>
    obtain ⟨s, r, g1, g2, -⟩ := hF.some q hq
    rw [g1]
    exact g2

theorem found_get {st : Stack S} (h : WF st) (x : Nat) : found x st = (get x (view st).cur).map (·.2) := by
  have hF := lookup_found x st h
  unfold found
  cases hq : (lookup x st).2 with
  | none => rw [hF.none hq]; rfl
  | some q =>
    obtain ⟨s, r, g1, -, g3⟩ := hF.some q hq
    rw [g1]
    exact g3

/-! ## By reference -/

theorem resolve_level {x : Nat} {sc : Scopes} {ref : Ref} (h : resolve x sc = some ref) :
    ref.level < sc.length := by
  induction sc with
  | nil => cases h
  | cons f r ih =>
    rw [resolve] at h
    split at h
    · cases h; simp
    · have := ih h
      simp only [List.length_cons]
      omega

theorem resolve_inj {x y : Nat} {sc : Scopes} {ref : Ref} (h : resolve x sc = some ref)
    (h' : resolve y sc = some ref) : x = y := by
  induction sc with
  | nil => cases h
  | cons f r ih =>
    rw [resolve] at h h'
    rcases find_iff (p := fun z : Nat => z == x) (l := f) with ⟨h1, -, -⟩ | ⟨i, a, h1, -, h3, h4, -⟩
    · rw [h1] at h
      rcases find_iff (p := fun z : Nat => z == y) (l := f) with ⟨g1, -, -⟩ | ⟨i, a, g1, -, g3, g4, -⟩
      · rw [g1] at h'
        exact ih h h'
      · rw [g1] at h'
        have := resolve_level h
        cases h'
        exact absurd this (Nat.lt_irrefl _)
    · rw [h1] at h
      rcases find_iff (p := fun z : Nat => z == y) (l := f) with ⟨g1, -, -⟩ | ⟨j, b, g1, -, g3, g4, -⟩
      · rw [g1] at h'
        have := resolve_level h'
        cases h
        exact absurd this (Nat.lt_irrefl _)
      · rw [g1] at h'
        cases h
        simp only [Option.some.injEq, Ref.mk.injEq, true_and] at h'
        subst h'
        rw [h3] at g3
        cases g3
        rw [beq_iff_eq] at h4 g4
        rw [← h4, ← g4]

theorem get_head_level {x : Nat} {fr : List (Nat × S)} {r : Env S} {s : S} {ref : Ref}
    (h : get x (fr :: r) = some (s, ref)) (hl : ref.level ≠ r.length) : get x r = some (s, ref) := by
  rw [get] at h
  rcases find_iff (p := fun p : Nat × S => p.1 == x) (l := fr) with ⟨h1, h2, -⟩ | ⟨i, a, h1, h2, -⟩
  · rw [h1, h2] at h
    exact h
  · rw [h1, h2] at h
    cases h
    exact absurd rfl hl

/-- The entry of a table with a reference, if it has one. -/
theorem refIndex_found {t : Table S} {r : Stack S} (h : WF (t :: r)) {x : Nat} {s : S} {ref : Ref}
    (hg : get x (view (t :: r)).cur = some (s, ref)) :
    (∃ i e, t.refIndex ref = some i ∧ t.entries[i]? = some e ∧ e.name = x ∧ e.state = s)
    ∨ (t.refIndex ref = none
        ∧ (t.kind ≠ .normal ∨ t.level ≠ ref.level → get x (beneath t.kind r) = some (s, ref))) := by
  obtain ⟨⟨o1, o2, o3, o4⟩, hw⟩ := h
  have hres := get_resolve x (view (t :: r)).cur
  rw [hg] at hres
  rcases find_iff (p := fun e : Entry S => e.ref == some ref) (l := t.entries) with
    ⟨h1, -, h3⟩ | ⟨i, e, h1, -, h3, h4, h5⟩
  · right
    refine ⟨h1, ?_⟩
    refine kind_cases (t := t) (fun hk => ?_) (fun hk => ?_) (fun hk => ?_)
    · rintro (hx | hx)
      · exact absurd hk hx
      · rw [view_normal r hk] at hg
        rw [hk]
        exact get_head_level hg (fun h => hx ((o1 hk).2.1.trans h.symm))
    · intro _
      rw [view_switch r hk] at hg
      rw [hk]
      exact hg
    · intro _
      rcases find_cases t x with ⟨-, g2, g3⟩ | ⟨i, e, g1, g2, -, g4, g5⟩
      · rw [← get_missing g2 g3]
        exact hg
      · exfalso
        have := get_found ⟨⟨o1, o2, o3, o4⟩, hw⟩ g1 g2 g4 g5
        rw [hg] at this
        obtain ⟨p1, p2⟩ := (o3 hk).2 e g5
        obtain ⟨r', hr'⟩ := Option.isSome_iff_exists.1 p1
        simp only [Option.some.injEq, Prod.mk.injEq, Table.refOf, hr'] at this
        have hn := h3 e g5
        rw [hr', ← this.2] at hn
        simp at hn
  · left
    refine ⟨i, e, h1, h3, ?_⟩
    have hr : e.ref = some ref := by simpa using h4
    refine kind_cases (t := t) (fun hk => ?_) (fun hk => ?_) (fun hk => ?_)
    · rw [(o1 hk).2.2 e h5] at hr
      cases hr
    · rw [o2 hk] at h5
      cases h5
    · have hv : names (view (t :: r)).cur = names (beneath t.kind r) := by
        rw [view_stops r hk, names_mapVis]
      have hx : e.name = x := by
        refine resolve_inj (sc := names (beneath t.kind r)) (ref := ref) ?_ ?_
        · rw [← ((o3 hk).2 e h5).2, hr]
        · rw [← hv, ← hres]
          rfl
      refine ⟨hx, ?_⟩
      rcases find_cases t x with ⟨-, -, g3⟩ | ⟨j, e', g1, g2, -, g4, g5⟩
      · exact absurd (hx ▸ List.mem_map_of_mem h5) g3
      · have hee : e' = e := List.inj_on_of_nodup_map (o3 hk).1 g5 h5 (g4.trans hx.symm)
        subst hee
        have := get_found ⟨⟨o1, o2, o3, o4⟩, hw⟩ g1 g2 g4 g5
        rw [hg] at this
        simp only [Option.some.injEq, Prod.mk.injEq] at this
        exact this.1.symm

/-- The entry in the scope of its declaration. -/
theorem entry_normal {t : Table S} {r : Stack S} (h : WF (t :: r)) (hk : t.kind = .normal) {x : Nat}
    {s : S} {ref : Ref} (hg : get x (view (t :: r)).cur = some (s, ref)) (hl : t.level = ref.level) :
    ∃ e, t.entries[ref.index]? = some e ∧ e.name = x ∧ e.state = s := by
  have o1 := h.1.1
  rcases find_cases t x with ⟨-, g2, g3⟩ | ⟨j, e, g1, g2, g6, g4, g5⟩
  · exfalso
    have hm := get_missing (r := r) g2 g3
    rw [hg, hk] at hm
    have := get_resolve x (view r).cur
    have hb : get x (view r).cur = some (s, ref) := hm.symm
    rw [hb] at this
    have hlt := resolve_level this.symm
    rw [names_length, ← (o1 hk).2.1, hl] at hlt
    exact absurd hlt (Nat.lt_irrefl _)
  · have := get_found h g1 g2 g4 g5
    rw [hg] at this
    simp only [Option.some.injEq, Prod.mk.injEq, Table.refOf, (o1 hk).2.2 e g5] at this
    exact ⟨e, by rw [this.2]; exact g6, g4, this.1.symm⟩

theorem isBranch_iff (k : Kind) : k.isBranch = true ↔ k ≠ .normal := by cases k <;> decide

theorem leveled_dropWhile {st : Stack S} (h : Leveled st) :
    Leveled (st.dropWhile (·.kind == .cbranch)) := by
  induction st with
  | nil => trivial
  | cons t r ih =>
    rw [List.dropWhile_cons]
    split
    · exact ih h.2
    · exact h

theorem leveled_dropEnv {t : Table S} {r : Stack S} (h : Leveled (t :: r)) :
    Leveled (dropEnv (t :: r)) := by
  by_cases hc : t.kind = .cbranch
  · rw [dropEnv_case r hc]
    exact leveled_dropWhile h.2
  · by_cases hf : t.kind = .fbranch
    · rw [dropEnv_false r hf]
      cases r with
      | nil => trivial
      | cons u r => exact h.2.2
    · rw [dropEnv_other r hf hc]
      exact h.2

/-- Going out, the right entry is found. -/
theorem searchRef_found (ref : Ref) (st : Stack S) (hw : WF st) (hl : Leveled st) {x : Nat} {s : S}
    (hg : get x (view st).cur = some (s, ref)) :
    ∃ e, searchRef ref st = some e ∧ e.name = x ∧ e.state = s := by
  fun_induction searchRef ref st with
  | case1 => cases hg
  | case2 t r hlev e hm =>
    refine ⟨e, rfl, ?_⟩
    rcases refIndex_found hw hg with ⟨i, e', h1, h2, h3, h4⟩ | ⟨h1, -⟩
    · rw [h1] at hm
      split at hm
      · simp only [Option.bind_some, h2, Option.some.injEq] at hm
        subst hm
        exact ⟨h3, h4⟩
      · cases hm
    · rw [h1] at hm
      split at hm <;> cases hm
  | case3 t r hlev hm ih =>
    obtain ⟨d1, d2⟩ := dropEnv_view hw
    refine ih d1 (leveled_dropEnv hl) ?_
    rw [d2]
    rcases refIndex_found hw hg with ⟨i, e', h1, h2, h3, h4⟩ | ⟨h1, h5⟩
    · rw [h1] at hm
      split at hm
      · simp only [Option.bind_some, h2] at hm
        cases hm
      · next hb =>
        exfalso
        rw [isBranch_iff, not_not] at hb
        obtain ⟨⟨o1, -, -, -⟩, -⟩ := hw
        rcases find_iff (p := fun e : Entry S => e.ref == some ref) (l := t.entries) with
          ⟨g1, -, g3⟩ | ⟨i, e, g1, -, g3, g4, g5⟩
        · have : t.refIndex ref = none := g1
          rw [h1] at this
          cases this
        · rw [(o1 hb).2.2 e g5] at g4
          cases g4
    · refine h5 ?_
      rcases hlev with hlev | ⟨hb, -⟩
      · exact .inr (by omega)
      · exact .inl ((isBranch_iff _).1 hb)
  | case4 t r hlev =>
    rw [not_or] at hlev
    have hlt : ref.level < t.level + 1 := by
      have := get_resolve x (view (t :: r)).cur
      rw [hg] at this
      have h2 := resolve_level this.symm
      rw [names_length, (view_length hw).1, ← hl.1] at h2
      exact h2
    have he : t.level = ref.level := by omega
    have hk : t.kind = .normal := by
      by_contra hx
      exact hlev.2 ⟨(isBranch_iff _).2 hx, he⟩
    exact entry_normal hw hk hg he

theorem toBranch_spec (st : Stack S) (hw : WF st) (hl : Leveled st) :
    WF (toBranch st) ∧ (∀ x s ref, get x (view st).cur = some (s, ref) →
      (∀ b r, toBranch st = b :: r → ref.level ≤ b.level) → toBranch st ≠ [] →
      get x (view (toBranch st)).cur = some (s, ref))
    ∧ (∀ b r, toBranch st = b :: r → ∀ t r', st = t :: r' → b.level ≤ t.level) := by
  fun_induction toBranch st with
  | case1 => exact ⟨trivial, fun x s ref h => (by cases h), fun b r h => (by cases h)⟩
  | case2 t r hb =>
    refine ⟨hw, fun x s ref h _ _ => h, ?_⟩
    intro b r' h t' r'' h'
    cases h
    cases h'
    exact Nat.le_refl _
  | case3 t r hb ih =>
    rw [isBranch_iff, not_not] at hb
    have hd : dropEnv (t :: r) = r := dropEnv_other r (by rw [hb]; decide) (by rw [hb]; decide)
    rw [hd] at ih ⊢
    obtain ⟨i1, i2, i3⟩ := ih hw.2 hl.2
    have hlev : ∀ b r', toBranch r = b :: r' → b.level < t.level := by
      intro b r' h
      cases r with
      | nil => rw [toBranch] at h; cases h
      | cons u r =>
        have h1 := i3 b r' h u r rfl
        have h2 := hl.1
        have h3 := hl.2.1
        rw [scopes, ← h3, if_pos hb] at h2
        omega
    refine ⟨i1, ?_, ?_⟩
    · intro x s ref hg hle hne
      refine i2 x s ref ?_ hle hne
      rw [view_normal r hb] at hg
      refine get_head_level hg ?_
      have : t.level = (view r).cur.length := (hw.1.1 hb).2.1
      rw [← this]
      cases hb' : toBranch r with
      | nil => exact absurd hb' hne
      | cons b r' =>
        have h1 := hlev b r' hb'
        have h2 := hle b r' hb'
        omega
    · intro b r' h t' r'' h'
      cases h'
      exact Nat.le_of_lt (hlev b r' h)

theorem toBranch_eq (st : Stack S) : toBranch st = branch st := by
  fun_induction toBranch st with
  | case1 => rfl
  | case2 t r hb =>
    rw [branch, List.dropWhile_cons, if_neg]
    simpa using (isBranch_iff _).1 hb
  | case3 t r hb ih =>
    rw [isBranch_iff, not_not] at hb
    rw [ih, dropEnv_other r (by rw [hb]; decide) (by rw [hb]; decide), branch, branch,
      List.dropWhile_cons, if_pos (by simp [hb])]

/-- What is found for the reference of a visible variable. -/
theorem getRef_spec {st : Stack S} (hw : WF st) (hl : Leveled st) {x : Nat} {s : S} {ref : Ref}
    (hg : get x (view st).cur = some (s, ref)) :
    (Direct ref st → getRef ref st = some s)
    ∧ (¬ Direct ref st → getRef ref st = (get x (view (branch st)).cur).map (·.1)) := by
  cases st with
  | nil => cases hg
  | cons t r =>
    have hlt : ref.level < t.level + 1 := by
      have := get_resolve x (view (t :: r)).cur
      rw [hg] at this
      have h2 := resolve_level this.symm
      rw [names_length, (view_length hw).1, ← hl.1] at h2
      exact h2
    have hbr : t.kind ≠ .normal → Direct ref (t :: r) := by
      intro hk t' b h h'
      cases h
      rw [← toBranch_eq, toBranch, if_pos ((isBranch_iff _).2 hk)] at h'
      cases h'
      right
      omega
    rw [getRef]
    rcases refIndex_found hw hg with ⟨i, e', h1, h2, h3, h4⟩ | ⟨h1, h5⟩
    · rw [h1]
      simp only [Option.bind_some, h2]
      refine ⟨fun _ => by rw [h4], fun hx => absurd (hbr ?_) hx⟩
      intro hk
      rcases find_iff (p := fun e : Entry S => e.ref == some ref) (l := t.entries) with
        ⟨g1, -, g3⟩ | ⟨i, e, g1, -, g3, g4, g5⟩
      · have : t.refIndex ref = none := g1
        rw [h1] at this
        cases this
      · rw [(hw.1.1 hk).2.2 e g5] at g4
        cases g4
    · rw [h1]
      simp only [Option.bind_none]
      by_cases hk : t.kind = .normal ∧ t.level = ref.level
      · have : (!t.kind.isBranch && t.level == ref.level) = true := by
          simp [hk.1, hk.2, Kind.isBranch]
        rw [if_pos this]
        obtain ⟨e, e1, e2, e3⟩ := entry_normal hw hk.1 hg hk.2
        rw [e1]
        refine ⟨fun _ => by simp [e3], fun hx => absurd ?_ hx⟩
        intro t' b h _
        cases h
        exact .inl hk.2.symm
      · have : ¬ (!t.kind.isBranch && t.level == ref.level) = true := by
          intro hx
          rw [Bool.and_eq_true, Bool.not_eq_true', beq_iff_eq] at hx
          refine hk ⟨?_, hx.2⟩
          by_contra hk'
          rw [(isBranch_iff _).2 hk'] at hx
          cases hx.1
        rw [if_neg this]
        obtain ⟨e, e1, e2, e3⟩ := searchRef_found ref _ hw hl hg
        rw [e1]
        simp only [Option.bind_some]
        obtain ⟨b1, b2, b3⟩ := toBranch_spec _ hw hl
        unfold Direct
        rw [← toBranch_eq]
        cases hb : toBranch (t :: r) with
        | nil =>
          simp only
          refine ⟨fun _ => by rw [e3], fun hx => absurd ?_ hx⟩
          intro t' b _ h
          cases h
        | cons b r' =>
          simp only
          rw [hb] at b1 b2
          rw [search_get _ _ b1, e2]
          refine ⟨fun hall => ?_, fun _ => rfl⟩
          rw [b2 x s ref hg ?_ (by simp)]
          · rfl
          · intro b0 r0 h0
            cases h0
            rcases hall t b rfl rfl with h | h
            · by_cases hkn : t.kind = .normal
              · exact absurd ⟨hkn, h.symm⟩ hk
              · rw [toBranch, if_pos ((isBranch_iff _).2 hkn)] at hb
                cases hb
                omega
            · exact h

end Splint.Symtab
