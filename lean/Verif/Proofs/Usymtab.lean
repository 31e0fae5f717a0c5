import Verif.Proofs.UsymtabEnv
/-! What a symbol table says of the variables, and that looking names up and changing states do to
that what they should. -/
namespace Splint.Symtab
open Spec

variable {S : Type}

def frame (t : Table S) : List (Nat × S) := t.entries.map fun e => (e.name, e.state)

/-- What a branch makes of the state of a variable. -/
def over (t : Table S) (n : Nat) (s : S) : S :=
  match t.find n with
  | some e => e.state
  | none => s

/-- What is known, what was known outside of the innermost cases, and outside of the innermost
table. -/
structure View (S : Type) where
  cur : Env S
  base : Env S
  under : Env S

def view : Stack S → View S
  | [] => ⟨[], [], []⟩
  | t :: r =>
    match t.kind with
    | .normal => ⟨frame t :: (view r).cur, frame t :: (view r).cur, (view r).cur⟩
    | .switch => ⟨(view r).cur, (view r).cur, (view r).cur⟩
    | .tbranch => ⟨mapVis (over t) [] (view r).cur, mapVis (over t) [] (view r).cur, (view r).cur⟩
    | .fbranch => ⟨mapVis (over t) [] (view r).under, mapVis (over t) [] (view r).under, (view r).cur⟩
    | .cbranch => ⟨mapVis (over t) [] (view r).base, (view r).base, (view r).cur⟩

/-- What a branch is a branch of. -/
def beneath (k : Kind) (r : Stack S) : Env S :=
  match k with
  | .fbranch => (view r).under
  | .cbranch => (view r).base
  | _ => (view r).cur

theorem view_normal {t : Table S} (r : Stack S) (h : t.kind = .normal) :
    view (t :: r) = ⟨frame t :: (view r).cur, frame t :: (view r).cur, (view r).cur⟩ := by
  simp [view, h]

theorem view_switch {t : Table S} (r : Stack S) (h : t.kind = .switch) :
    view (t :: r) = ⟨(view r).cur, (view r).cur, (view r).cur⟩ := by
  simp [view, h]

theorem view_stops {t : Table S} (r : Stack S) (h : t.kind.stops) :
    view (t :: r) = ⟨mapVis (over t) [] (beneath t.kind r),
      if t.kind = .cbranch then (view r).base else mapVis (over t) [] (beneath t.kind r),
      (view r).cur⟩ := by
  cases hk : t.kind <;> simp [hk, Kind.stops] at h <;> simp [view, hk, beneath]

theorem kind_cases {t : Table S} {P : Prop} (h1 : t.kind = .normal → P) (h2 : t.kind = .switch → P)
    (h3 : t.kind.stops → P) : P := by
  cases hk : t.kind
  · exact h1 hk
  · exact h3 (by rw [hk]; rfl)
  · exact h3 (by rw [hk]; rfl)
  · exact h3 (by rw [hk]; rfl)
  · exact h2 hk

/-- The entries of a branch are copies of variables that are visible there. -/
def Over (t : Table S) (E : Env S) : Prop :=
  (t.entries.map (·.name)).Nodup
  ∧ ∀ e ∈ t.entries, e.ref.isSome ∧ e.ref = resolve e.name (names E)

def Ok (t : Table S) (r : Stack S) : Prop :=
  (t.kind = .normal → (t.entries.map (·.name)).Nodup ∧ t.level = (view r).cur.length
    ∧ ∀ e ∈ t.entries, e.ref = none)
  ∧ (t.kind = .switch → t.entries = [])
  ∧ (t.kind.stops → Over t (beneath t.kind r))
  ∧ (t.kind = .fbranch → ∃ u r', r = u :: r' ∧ u.kind = .tbranch)

def WF : Stack S → Prop
  | [] => True
  | t :: r => Ok t r ∧ WF r

theorem nodup_mapVis {h : Nat → S → S} {seen : List Nat} {E : Env S} (hn : NodupE E) :
    NodupE (mapVis h seen E) := nodup_names (names_mapVis h seen E).symm hn

theorem wf_nodup {st : Stack S} (h : WF st) :
    NodupE (view st).cur ∧ NodupE (view st).base ∧ NodupE (view st).under := by
  induction st with
  | nil => exact ⟨(by intro _ h; cases h), (by intro _ h; cases h), (by intro _ h; cases h)⟩
  | cons t r ih =>
    obtain ⟨ho, hw⟩ := h
    obtain ⟨i1, i2, i3⟩ := ih hw
    refine kind_cases (t := t) (fun hk => ?_) (fun hk => ?_) (fun hk => ?_)
    · have hf : NodupE (frame t :: (view r).cur) := by
        intro fr hfr
        rcases List.mem_cons.1 hfr with rfl | hfr
        · have := (ho.1 hk).1
          simpa [frame, Function.comp_def] using this
        · exact i1 fr hfr
      rw [view_normal r hk]
      exact ⟨hf, hf, i1⟩
    · rw [view_switch r hk]
      exact ⟨i1, i1, i1⟩
    · have hb : NodupE (beneath t.kind r) := by
        unfold beneath
        split <;> assumption
      rw [view_stops r hk]
      refine ⟨nodup_mapVis hb, ?_, i1⟩
      simp only
      split
      · exact i2
      · exact nodup_mapVis hb

theorem nodup_beneath {r : Stack S} (h : WF r) (k : Kind) : NodupE (beneath k r) := by
  obtain ⟨i1, i2, i3⟩ := wf_nodup h
  unfold beneath
  split <;> assumption

/-! ## Looking up -/

theorem find_cases (t : Table S) (k : Nat) :
    (t.getIndex k = none ∧ t.find k = none ∧ k ∉ t.entries.map (·.name))
    ∨ ∃ i e, t.getIndex k = some i ∧ t.find k = some e ∧ t.entries[i]? = some e ∧ e.name = k
        ∧ e ∈ t.entries := by
  rcases find_iff (p := fun e : Entry S => e.name == k) (l := t.entries) with
    ⟨h1, h2, h3⟩ | ⟨i, e, h1, h2, h3, h4, h5⟩
  · refine .inl ⟨h1, h2, ?_⟩
    intro hm
    obtain ⟨e, he, rfl⟩ := List.mem_map.1 hm
    have := h3 e he
    simp at this
  · exact .inr ⟨i, e, h1, h2, h3, by simpa using h4, h5⟩

theorem lastCase_eq (t : Table S) (r : Stack S) :
    (lastCase (t :: r)).tail = r.dropWhile (·.kind == .cbranch)
    ∧ (t.kind = .cbranch → ∃ u r', lastCase (t :: r) = u :: r' ∧ u.kind = .cbranch) := by
  induction r generalizing t with
  | nil => exact ⟨rfl, fun h => ⟨t, [], rfl, h⟩⟩
  | cons u r ih =>
    rw [lastCase]
    by_cases hu : u.kind = .cbranch
    · rw [if_pos hu]
      refine ⟨?_, fun _ => (ih u).2 hu⟩
      rw [(ih u).1, List.dropWhile_cons, if_pos (by simp [hu])]
    · rw [if_neg hu]
      refine ⟨?_, fun h => ⟨t, _, rfl, h⟩⟩
      rw [List.dropWhile_cons, if_neg (by simp [hu])]
      rfl

theorem dropEnv_case {t : Table S} (r : Stack S) (h : t.kind = .cbranch) :
    dropEnv (t :: r) = r.dropWhile (·.kind == .cbranch) := by
  obtain ⟨h1, h2⟩ := lastCase_eq t r
  obtain ⟨u, r', h3, h4⟩ := h2 h
  rw [dropEnv, dropCases, if_pos h, h3, dropTrue, if_neg (by simp [h4]), ← h3, h1]

theorem dropEnv_false {t : Table S} (r : Stack S) (h : t.kind = .fbranch) :
    dropEnv (t :: r) = r.tail := by
  rw [dropEnv, dropCases, if_neg (by simp [h]), dropTrue, if_pos h]

theorem dropEnv_other {t : Table S} (r : Stack S) (h : t.kind ≠ .fbranch) (h' : t.kind ≠ .cbranch) :
    dropEnv (t :: r) = r := by
  rw [dropEnv, dropCases, if_neg h', dropTrue, if_neg h, List.tail_cons]

theorem view_dropWhile (st : Stack S) :
    (view (st.dropWhile (·.kind == .cbranch))).cur = (view st).base := by
  induction st with
  | nil => rfl
  | cons t r ih =>
    rw [List.dropWhile_cons]
    by_cases h : t.kind = .cbranch
    · rw [if_pos (by simp [h]), ih, view_stops r (by simp [h, Kind.stops]), h]
      rfl
    · rw [if_neg (by simp [h])]
      refine kind_cases (t := t) (fun hk => ?_) (fun hk => ?_) (fun hk => ?_)
      · rw [view_normal r hk]
      · rw [view_switch r hk]
      · rw [view_stops r hk]
        simp [h]

theorem wf_dropWhile {st : Stack S} (h : WF st) : WF (st.dropWhile (·.kind == .cbranch)) := by
  induction st with
  | nil => trivial
  | cons t r ih =>
    rw [List.dropWhile_cons]
    split
    · exact ih h.2
    · exact h

theorem dropEnv_view {t : Table S} {r : Stack S} (h : WF (t :: r)) :
    WF (dropEnv (t :: r)) ∧ (view (dropEnv (t :: r))).cur = beneath t.kind r := by
  obtain ⟨ho, hw⟩ := h
  by_cases hc : t.kind = .cbranch
  · rw [dropEnv_case r hc, hc]
    exact ⟨wf_dropWhile hw, view_dropWhile r⟩
  · by_cases hf : t.kind = .fbranch
    · rw [dropEnv_false r hf, hf]
      obtain ⟨u, r', rfl, hu⟩ := ho.2.2.2 hf
      refine ⟨hw.2, ?_⟩
      rw [beneath, view_stops r' (by simp [hu, Kind.stops])]
      rfl
    · rw [dropEnv_other r hf hc]
      refine ⟨hw, ?_⟩
      unfold beneath
      split
      · exact absurd ‹_› hf
      · exact absurd ‹_› hc
      · rfl

theorem frame_find {t : Table S} {k i : Nat} {e : Entry S} (h1 : t.getIndex k = some i)
    (h2 : t.find k = some e) :
    (frame t).findIdx? (·.1 == k) = some i ∧ (frame t).find? (·.1 == k) = some (e.name, e.state) := by
  constructor
  · rw [frame, List.findIdx?_map]
    exact h1
  · rw [frame, List.find?_map]
    have : List.find? ((fun x : Nat × S => x.1 == k) ∘ fun e : Entry S => (e.name, e.state))
      t.entries = some e := h2
    rw [this]
    rfl

theorem over_get {t : Table S} {E : Env S} (ho : Over t E) {k : Nat} {e : Entry S}
    (h2 : t.find k = some e) (hk : e.name = k) (he : e ∈ t.entries) :
    ∃ s r, get k E = some (s, r) ∧ e.ref = some r := by
  obtain ⟨hs, hr⟩ := ho.2 e he
  rw [hk, ← get_resolve] at hr
  cases hg : get k E with
  | none =>
    rw [hg] at hr
    rw [hr] at hs
    cases hs
  | some p =>
    rw [hg] at hr
    exact ⟨p.1, p.2, rfl, hr⟩

/-- What an entry found in a table is. -/
theorem get_found {t : Table S} {r : Stack S} (h : WF (t :: r)) {k i : Nat} {e : Entry S}
    (h1 : t.getIndex k = some i) (h2 : t.find k = some e) (hk : e.name = k) (he : e ∈ t.entries) :
    get k (view (t :: r)).cur = some (e.state, t.refOf i e) := by
  obtain ⟨ho, hw⟩ := h
  refine kind_cases (t := t) (fun hn => ?_) (fun hn => ?_) (fun hn => ?_)
  · obtain ⟨f1, f2⟩ := frame_find h1 h2
    obtain ⟨-, hl, hr⟩ := ho.1 hn
    rw [view_normal r hn, get, f1, f2]
    simp [Table.refOf, hr e he, hl]
  · rw [ho.2.1 hn] at he
    cases he
  · obtain ⟨s, ref, hg, hr⟩ := over_get (ho.2.2.1 hn) h2 hk he
    rw [view_stops r hn]
    simp only
    rw [get_mapVis _ _ _ _ (by simp), hg]
    simp [over, h2, Table.refOf, hr]

/-- A name that a table does not have. -/
theorem get_missing {t : Table S} {r : Stack S} {k : Nat}
    (h2 : t.find k = none) (hk : k ∉ t.entries.map (·.name)) :
    get k (view (t :: r)).cur = get k (beneath t.kind r) := by
  refine kind_cases (t := t) (fun hn => ?_) (fun hn => ?_) (fun hn => ?_)
  · rw [view_normal r hn, hn]
    exact get_tail (by simpa [frame, Function.comp_def] using hk)
  · rw [view_switch r hn, hn]
    rfl
  · rw [view_stops r hn]
    simp only
    rw [get_mapVis _ _ _ _ (by simp)]
    cases get k (beneath t.kind r) <;> simp [over, h2]

theorem search_get (k : Nat) (st : Stack S) (h : WF st) : search k st = get k (view st).cur := by
  fun_induction search k st with
  | case1 => rfl
  | case2 t r i e h2 h1 =>
    rcases find_cases t k with ⟨g1, g2, -⟩ | ⟨i', e', g1, g2, -, g4, g5⟩
    · rw [g1] at h1
      cases h1
    · rw [g1] at h1
      rw [g2] at h2
      cases h1
      cases h2
      exact (get_found h g1 g2 g4 g5).symm
  | case3 t r hne ih =>
    obtain ⟨hw, hv⟩ := dropEnv_view h
    rw [ih hw, hv]
    rcases find_cases t k with ⟨g1, g2, g3⟩ | ⟨i', e', g1, g2, -⟩
    · exact (get_missing g2 g3).symm
    · exact absurd g2 (hne i' e' g1)

/-! ## Changing a state -/

/-- The tables are the same but for entries in those down to the innermost branch, and marks are not
set. -/
def Keeps : Stack S → Stack S → Prop
  | [], [] => True
  | t :: r, t' :: r' =>
    t'.kind = t.kind ∧ t'.level = t.level ∧ (t.mustBreak = false → t'.mustBreak = false)
    ∧ (t.escape = false → t'.escape = false) ∧ (if t.kind.stops then r' = r else Keeps r r')
  | _, _ => False

theorem keeps_refl (st : Stack S) : Keeps st st := by
  induction st with
  | nil => trivial
  | cons t r ih =>
    refine ⟨rfl, rfl, id, id, ?_⟩
    split
    · rfl
    · exact ih

theorem keeps_trans {a b c : Stack S} (h : Keeps a b) (h' : Keeps b c) : Keeps a c := by
  induction a generalizing b c with
  | nil =>
    cases b with
    | nil => exact h'
    | cons => cases h
  | cons t r ih =>
    cases b with
    | nil => cases h
    | cons t' r' =>
      cases c with
      | nil => cases h'
      | cons t'' r'' =>
        obtain ⟨a1, a2, a3, a4, a5⟩ := h
        obtain ⟨b1, b2, b3, b4, b5⟩ := h'
        refine ⟨b1.trans a1, b2.trans a2, fun x => b3 (a3 x), fun x => b4 (a4 x), ?_⟩
        rw [a1] at b5
        split
        · next hs =>
          rw [if_pos hs] at a5 b5
          rw [b5, a5]
        · next hs =>
          rw [if_neg hs] at a5 b5
          exact ih a5 b5

theorem modify_map {es : List (Entry S)} {i : Nat} {e : Entry S} {k : Nat}
    (hn : (es.map (·.name)).Nodup) (hi : es[i]? = some e) (hk : e.name = k) (g : Entry S → Entry S) :
    es.modify i g = es.map fun e => if e.name = k then g e else e := by
  induction es generalizing i with
  | nil => simp at hi
  | cons a es ih =>
    rw [List.map_cons, List.nodup_cons] at hn
    cases i with
    | zero =>
      simp only [List.getElem?_cons_zero, Option.some.injEq] at hi
      subst hi
      rw [List.modify_zero_cons, List.map_cons, if_pos hk]
      congr 1
      conv_lhs => rw [← List.map_id es]
      apply List.map_congr_left
      intro b hb
      rw [if_neg]
      · rfl
      · intro hbk
        exact hn.1 (hk ▸ hbk ▸ List.mem_map_of_mem hb)
    | succ i =>
      simp only [List.getElem?_cons_succ] at hi
      rw [List.modify_succ_cons, List.map_cons, ih hn.2 hi, if_neg]
      intro hak
      refine hn.1 ?_
      rw [hak, ← hk]
      exact List.mem_map_of_mem (List.mem_of_getElem? hi)

theorem find_map_state (es : List (Entry S)) (k : Nat) (f : S → S) (n : Nat) :
    (es.map fun e => if e.name = k then { e with state := f e.state } else e).find? (·.name == n)
      = (es.find? (·.name == n)).map fun e => if e.name = k then { e with state := f e.state } else e := by
  rw [List.find?_map]
  congr 1
  congr 1
  funext e
  simp only [Function.comp]
  split <;> rfl

theorem setAt_entries {t : Table S} {k i : Nat} {e : Entry S} (hn : (t.entries.map (·.name)).Nodup)
    (h3 : t.entries[i]? = some e) (hk : e.name = k) (f : S → S) :
    (t.setAt i f).entries
      = t.entries.map fun e => if e.name = k then { e with state := f e.state } else e :=
  modify_map hn h3 hk _

theorem setAt_names {t : Table S} {i : Nat} (f : S → S) :
    (t.setAt i f).entries.map (·.name) = t.entries.map (·.name) := by
  simp only [Table.setAt]
  apply List.ext_getElem?
  intro j
  simp only [List.getElem?_map, List.getElem?_modify]
  cases t.entries[j]? <;> simp
  split <;> rfl

theorem setAt_over {t : Table S} {k i : Nat} {e : Entry S} (hn : (t.entries.map (·.name)).Nodup)
    (h3 : t.entries[i]? = some e) (hk : e.name = k) (h2 : t.find k = some e) (f : S → S) (n : Nat)
    (s : S) : over (t.setAt i f) n s = only k f n (over t n s) := by
  have hf : (t.setAt i f).find n = (t.find n).map
      fun e => if e.name = k then { e with state := f e.state } else e := by
    rw [Table.find, setAt_entries hn h3 hk, find_map_state]
    rfl
  unfold over only
  rw [hf]
  by_cases hnk : n = k
  · subst hnk
    simp [h2, hk]
  · rw [if_neg hnk]
    rcases find_cases t n with ⟨-, g2, -⟩ | ⟨_, e', -, g2, -, g4, -⟩
    · rw [g2]
      rfl
    · rw [g2]
      have : e'.name ≠ k := by rw [g4]; exact hnk
      simp [this]

theorem over_setAt {t : Table S} {E : Env S} {i : Nat} {f : S → S} (ho : Over t E) :
    Over (t.setAt i f) E := by
  refine ⟨by rw [setAt_names]; exact ho.1, ?_⟩
  intro e he
  obtain ⟨j, hj⟩ := List.getElem?_of_mem he
  simp only [Table.setAt, List.getElem?_modify] at hj
  cases hg : t.entries[j]? with
  | none => rw [hg] at hj; simp at hj
  | some a =>
    have ha := ho.2 a (List.mem_of_getElem? hg)
    rw [hg] at hj
    simp only [Option.map_eq_map, Option.map_some, Option.some.injEq] at hj
    rw [← hj]
    split <;> exact ha

theorem setAt_refs {t : Table S} {i : Nat} {f : S → S} (h : ∀ e ∈ t.entries, e.ref = none) :
    ∀ e ∈ (t.setAt i f).entries, e.ref = none := by
  intro e he
  obtain ⟨j, hj⟩ := List.getElem?_of_mem he
  simp only [Table.setAt, List.getElem?_modify] at hj
  cases hg : t.entries[j]? with
  | none => rw [hg] at hj; simp at hj
  | some a =>
    have ha := h a (List.mem_of_getElem? hg)
    rw [hg] at hj
    simp only [Option.map_eq_map, Option.map_some, Option.some.injEq] at hj
    rw [← hj]
    split <;> exact ha

/-- The tables below the place do not matter for what stops there. -/
theorem setAt_found {t : Table S} {r : Stack S} (h : WF (t :: r)) {k i : Nat} {e : Entry S}
    (h2 : t.find k = some e) (h3 : t.entries[i]? = some e)
    (hk : e.name = k) (he : e ∈ t.entries) (f : S → S) :
    WF (t.setAt i f :: r) ∧ (view (t.setAt i f :: r)).cur = assign k f (view (t :: r)).cur
    ∧ Keeps (t :: r) (t.setAt i f :: r) := by
  obtain ⟨ho, hw⟩ := h
  have hkeeps : Keeps (t :: r) (t.setAt i f :: r) := by
    refine ⟨rfl, rfl, id, id, ?_⟩
    split
    · rfl
    · exact keeps_refl r
  refine kind_cases (t := t) (fun hn => ?_) (fun hn => ?_) (fun hn => ?_)
  · obtain ⟨o1, o2, o3⟩ := ho.1 hn
    have hk' : (t.setAt i f).kind = .normal := hn
    refine ⟨⟨⟨fun _ => ⟨by rw [setAt_names]; exact o1, o2, setAt_refs o3⟩, ?_, ?_, ?_⟩, hw⟩, ?_, hkeeps⟩
    · intro hx; rw [hk'] at hx; cases hx
    · intro hx; rw [hk'] at hx; cases hx
    · intro hx; rw [hk'] at hx; cases hx
    · rw [view_normal r hk', view_normal r hn]
      simp only
      rw [assign, if_pos]
      · congr 1
        rw [frame, setAt_entries o1 h3 hk, frame, List.map_map, List.map_map]
        apply List.map_congr_left
        intro a _
        by_cases ha : a.name = k <;> simp [ha]
      · rw [← hk]
        have : (e.name, e.state) ∈ frame t := List.mem_map_of_mem he
        exact List.mem_map_of_mem this
  · rw [ho.2.1 hn] at he
    cases he
  · have hk' : (t.setAt i f).kind = t.kind := rfl
    obtain ⟨o1, o2, o3, o4⟩ := ho
    refine ⟨⟨⟨?_, ?_, fun _ => over_setAt (o3 hn), o4⟩, hw⟩, ?_, hkeeps⟩
    · intro hx; rw [hk'] at hx; rw [hx] at hn; cases hn
    · intro hx; rw [hk'] at hx; rw [hx] at hn; cases hn
    · rw [view_stops r hn, view_stops r (t := t.setAt i f) (by rw [hk']; exact hn), hk']
      simp only
      rw [assign_mapVis, mapVis_mapVis]
      congr 1
      funext n s
      exact setAt_over (o3 hn).1 h3 hk h2 f n s

theorem stateAt_eq (p : Pos) (st : Stack S) :
    stateAt p st = ((st[p.depth]?).bind fun u => u.entries[p.index]?).map (·.state) := by
  obtain ⟨d, i⟩ := p
  induction d generalizing st with
  | zero => cases st <;> simp [stateAt]
  | succ d ih =>
    cases st with
    | nil => simp [stateAt]
    | cons t r => simpa [stateAt] using ih r

/-- What is to hold of the result of looking a name up. -/
structure Found (k : Nat) (st : Stack S) (q : Stack S × Option Pos) : Prop where
  wf : WF q.1
  view : view q.1 = view st
  keeps : Keeps st q.1
  none : q.2 = none → get k (Symtab.view st).cur = none
  some : ∀ p, q.2 = some p → ∃ s r, get k (Symtab.view st).cur = some (s, r)
    ∧ stateAt p q.1 = some s ∧ refAt p q.1 = some r
  set : ∀ p f, q.2 = Option.some p → WF (setAt f p q.1)
    ∧ (Symtab.view (setAt f p q.1)).cur = assign k f (Symtab.view st).cur
    ∧ Keeps q.1 (setAt f p q.1)

theorem found_here {t : Table S} {r : Stack S} (h : WF (t :: r)) {k i : Nat} {e : Entry S}
    (h1 : t.getIndex k = some i) (h2 : t.find k = some e) (h3 : t.entries[i]? = some e)
    (hk : e.name = k) (he : e ∈ t.entries) : Found k (t :: r) (t :: r, some ⟨0, i⟩) where
  wf := h
  view := rfl
  keeps := keeps_refl _
  none := by intro h; cases h
  some := by
    intro p hp
    cases hp
    exact ⟨_, _, get_found h h1 h2 hk he, by simp [stateAt, h3], by simp [refAt, h3]⟩
  set := by
    intro p f hp
    cases hp
    exact setAt_found h h2 h3 hk he f

/-- The table of a branch with a copy of a variable. -/
theorem add_ref {t : Table S} {r : Stack S} (h : WF (t :: r)) (hs : t.kind.stops) {k : Nat}
    (h2 : t.find k = none) (hkn : k ∉ t.entries.map (·.name)) {s : S} {ref : Ref}
    (hg : get k (view (t :: r)).cur = some (s, ref)) :
    let t' : Table S := { t with entries := t.entries ++ [⟨k, s, some ref⟩] }
    WF (t' :: r) ∧ view (t' :: r) = view (t :: r) ∧ Keeps (t :: r) (t' :: r)
    ∧ t'.getIndex k = some t.entries.length ∧ t'.find k = some ⟨k, s, some ref⟩
    ∧ (∀ n, n ≠ k → t'.find n = t.find n) := by
  intro t'
  obtain ⟨⟨o1, o2, o3, o4⟩, hw⟩ := h
  have hk' : t'.kind = t.kind := rfl
  have hgb : get k (beneath t.kind r) = some (s, ref) := by
    rw [← hg, get_missing h2 hkn]
  have hfind : ∀ n, n ≠ k → t'.find n = t.find n := by
    intro n hn
    simp [Table.find, t', List.find?_append, Ne.symm hn]
  have hfk : t'.find k = some ⟨k, s, some ref⟩ := by
    have : t.entries.find? (·.name == k) = none := h2
    simp [Table.find, t', List.find?_append, this]
  have hover : mapVis (over t') [] (beneath t.kind r) = mapVis (over t) [] (beneath t.kind r) := by
    apply mapVis_congr (nodup_beneath hw _)
    intro n x rx _ hx
    by_cases hn : n = k
    · subst hn
      rw [hgb] at hx
      cases hx
      simp [over, hfk, h2]
    · simp [over, hfind n hn]
  refine ⟨⟨⟨?_, ?_, ?_, o4⟩, hw⟩, ?_, ⟨rfl, rfl, id, id, by rw [if_pos hs]⟩, ?_, hfk, hfind⟩
  · intro hx; rw [hk'] at hx; rw [hx] at hs; cases hs
  · intro hx; rw [hk'] at hx; rw [hx] at hs; cases hs
  · intro _
    obtain ⟨p1, p2⟩ := o3 hs
    refine ⟨?_, ?_⟩
    · simp only [t', List.map_append, List.map_cons, List.map_nil]
      rw [List.nodup_append]
      refine ⟨p1, by simp, ?_⟩
      rintro a ha b hb rfl
      simp only [List.mem_singleton] at hb
      exact hkn (hb ▸ ha)
    · intro e he
      rcases List.mem_append.1 he with he | he
      · exact p2 e he
      · rw [List.mem_singleton] at he
        subst he
        refine ⟨rfl, ?_⟩
        rw [← get_resolve, hk', hgb]
        rfl
  · rw [view_stops r hs, view_stops r (t := t') hs, hk', hover]
  · have h1 : t.entries.findIdx? (·.name == k) = none := by
      rw [List.findIdx?_eq_none_iff]
      intro e he
      have : e.name ≠ k := fun hx => hkn (hx ▸ List.mem_map_of_mem he)
      simpa using this
    simp [Table.getIndex, t', List.findIdx?_append, h1]

theorem lookup_found (k : Nat) (st : Stack S) (h : WF st) : Found k st (lookup k st) := by
  induction st with
  | nil =>
    exact ⟨trivial, rfl, trivial, fun _ => rfl, fun p hp => (by cases hp), fun p f hp => (by cases hp)⟩
  | cons t r ih =>
    rw [lookup]
    rcases find_cases t k with ⟨g1, g2, g3⟩ | ⟨i', e', g1, g2, g6, g4, g5⟩
    · rw [g1]
      simp only
      split
      · next hs =>
        rw [addRefEntry, search_get k _ h]
        cases hg : get k (view (t :: r)).cur with
        | none =>
          exact ⟨h, rfl, keeps_refl _, fun _ => hg, fun p hp => (by cases hp), fun p f hp => (by cases hp)⟩
        | some p =>
          obtain ⟨s, ref⟩ := p
          obtain ⟨a1, a2, a3, a4, a5, -⟩ := add_ref h hs g2 g3 hg
          simp only
          have hF := found_here a1 a4 a5 (by simp) rfl (by simp)
          refine ⟨a1, a2, a3, fun hx => (by cases hx), ?_, ?_⟩
          · intro p hp
            rw [← a2]
            exact hF.some p hp
          · intro p f hp
            rw [← a2]
            exact hF.set p f hp
      · next hs =>
        have hF := ih h.2
        set q := lookup k r with hq
        clear_value q
        obtain ⟨⟨o1, o2, o3, o4⟩, hw⟩ := h
        have hfb : t.kind ≠ .fbranch := by intro hx; rw [hx] at hs; exact hs rfl
        have hb : beneath t.kind r = (view r).cur := by
          unfold beneath
          split
          · exact absurd ‹_› hfb
          · next hx => exact absurd rfl (by rw [hx] at hs; exact hs)
          · rfl
        have hg : get k (view (t :: r)).cur = get k (view r).cur := by
          rw [get_missing g2 g3, hb]
        have hok : ∀ r', (view r').cur.length = (view r).cur.length → Ok t r' := by
          intro r' hl
          refine ⟨fun hn => ?_, o2, fun hx => absurd hx hs, fun hx => absurd hx hfb⟩
          obtain ⟨p1, p2, p3⟩ := o1 hn
          exact ⟨p1, by rw [hl]; exact p2, p3⟩
        have hview : ∀ r' E, (view r').cur = E →
            (view (t :: r')).cur = if t.kind = .normal then frame t :: E else E := by
          intro r' E hE
          refine kind_cases (t := t) (fun hn => ?_) (fun hn => ?_) (fun hn => absurd hn hs)
          · rw [view_normal r' hn, if_pos hn, hE]
          · rw [view_switch r' hn, if_neg (by rw [hn]; decide), hE]
        refine ⟨⟨hok _ (by rw [hF.view]), hF.wf⟩, ?_, ?_, ?_, ?_, ?_⟩
        · simp only [Symtab.view]
          rw [hF.view]
        · refine ⟨rfl, rfl, id, id, ?_⟩
          rw [if_neg hs]
          exact hF.keeps
        · intro hx
          rw [hg]
          refine hF.none ?_
          cases hq2 : q.2 with
          | none => rfl
          | some p => rw [hq2] at hx; cases hx
        · intro p hp
          cases hq2 : q.2 with
          | none => rw [hq2] at hp; cases hp
          | some p' =>
            rw [hq2] at hp
            cases hp
            rw [hg]
            exact hF.some p' hq2
        · intro p f hp
          cases hq2 : q.2 with
          | none => rw [hq2] at hp; cases hp
          | some p' =>
            rw [hq2] at hp
            cases hp
            obtain ⟨s1, s2, s3⟩ := hF.set p' f hq2
            have hset : setAt f ⟨p'.depth + 1, p'.index⟩ (t :: q.1) = t :: setAt f p' q.1 := rfl
            simp only
            rw [hset]
            refine ⟨⟨hok _ ?_, s1⟩, ?_, ?_⟩
            · rw [s2, ← names_length, names_assign, names_length]
            · rw [hview _ _ s2, hview r _ rfl]
              split
              · next hn =>
                rw [assign, if_neg]
                simpa [frame, Function.comp_def] using g3
              · rfl
            · refine ⟨rfl, rfl, id, id, ?_⟩
              rw [if_neg hs]
              exact s3
    · rw [g1]
      exact found_here h g1 g2 g6 g4 g5

theorem get_none_assign {k : Nat} {f : S → S} {E : Env S} (hg : get k E = none) : assign k f E = E := by
  induction E with
  | nil => rfl
  | cons fr r ih =>
    rw [get] at hg
    rcases find_iff (p := fun p : Nat × S => p.1 == k) (l := fr) with
      ⟨h1, h2, h3⟩ | ⟨i, a, h1, h2, -⟩
    · rw [h1, h2] at hg
      rw [assign, if_neg (get_none_seen h3), ih hg]
    · rw [h1, h2] at hg
      cases hg

theorem update_spec (k : Nat) (f : S → S) (st : Stack S) (h : WF st) :
    WF (update k f st) ∧ (view (update k f st)).cur = assign k f (view st).cur
    ∧ Keeps st (update k f st) := by
  have hF := lookup_found k st h
  rw [update]
  generalize lookup k st = q at hF
  obtain ⟨st', p⟩ := q
  cases p with
  | none =>
    refine ⟨hF.wf, ?_, hF.keeps⟩
    rw [get_none_assign (hF.none rfl)]
    exact congrArg View.cur hF.view
  | some p =>
    obtain ⟨h1, h2, h3⟩ := hF.set p f rfl
    exact ⟨h1, h2, keeps_trans hF.keeps h3⟩

/-! ## Merging -/

/-- What changing the states of the variables with the names of some entries does. -/
def apply (f : Entry S → S → S) (es : List (Entry S)) (n : Nat) (s : S) : S :=
  match es.find? (·.name == n) with
  | some e => f e s
  | none => s

theorem updates_spec (f : Entry S → S → S) (es : List (Entry S)) (hn : (es.map (·.name)).Nodup)
    (st : Stack S) (h : WF st) :
    WF (updates f es st) ∧ (view (updates f es st)).cur = mapVis (apply f es) [] (view st).cur
    ∧ Keeps st (updates f es st) := by
  induction es generalizing st with
  | nil => exact ⟨h, (mapVis_id (fun _ _ _ => rfl)).symm, keeps_refl st⟩
  | cons e es ih =>
    rw [List.map_cons, List.nodup_cons] at hn
    obtain ⟨u1, u2, u3⟩ := update_spec e.name (f e) st h
    obtain ⟨i1, i2, i3⟩ := ih hn.2 _ u1
    refine ⟨i1, ?_, keeps_trans u3 i3⟩
    rw [updates, i2, u2, assign_mapVis, mapVis_mapVis]
    congr 1
    funext n s
    unfold apply only
    rw [List.find?_cons]
    by_cases hx : e.name = n
    · subst hx
      have : es.find? (fun x => x.name == e.name) = none := by
        rw [List.find?_eq_none]
        intro a ha hc
        exact hn.1 ((by simpa using hc : a.name = e.name) ▸ List.mem_map_of_mem ha)
      simp [this]
    · have hx' : n ≠ e.name := fun h => hx h.symm
      have hb : (e.name == n) = false := by simpa using hx
      simp [hx', hb]

theorem find_filter_name (es : List (Entry S)) (p : Nat → Bool) (n : Nat) :
    (es.filter fun e => p e.name).find? (·.name == n)
      = if p n then es.find? (·.name == n) else none := by
  induction es with
  | nil => simp
  | cons e es ih =>
    rw [List.filter_cons]
    by_cases hp : p e.name
    · rw [if_pos hp, List.find?_cons, List.find?_cons, ih]
      by_cases hx : e.name = n
      · subst hx
        simp [hp]
      · have : (e.name == n) = false := by simpa using hx
        simp [this]
    · rw [if_neg hp, ih, List.find?_cons]
      by_cases hx : e.name = n
      · subst hx
        simp [hp]
      · have : (e.name == n) = false := by simpa using hx
        simp [this]

theorem nodup_filter {es : List (Entry S)} (p : Entry S → Bool) (hn : (es.map (·.name)).Nodup) :
    ((es.filter p).map (·.name)).Nodup :=
  hn.sublist (List.filter_sublist.map _)

/-- What merging two branches makes of a state. -/
def merged (o : Ops S) (eT eF : Bool) (tt ft : Table S) (n : Nat) (s : S) : S :=
  match tt.find n, ft.find n with
  | t, some f => o.mergeFalse eT eF t f s
  | some t, none => o.mergeTrue eT eF t s
  | none, none => s

theorem popBranches_spec (o : Ops S) (eT eF : Bool) {ft tt : Table S} {env : Stack S}
    (hf : ft.kind = .fbranch) (ht : tt.kind = .tbranch) (h : WF (ft :: tt :: env)) :
    ∃ env', popBranches o eT eF (ft :: tt :: env) = some env' ∧ WF env'
      ∧ (view env').cur = mapVis (merged o eT eF tt ft) [] (view env).cur ∧ Keeps env env' := by
  obtain ⟨⟨-, -, f3, -⟩, ⟨-, -, t3, -⟩, hw⟩ := h
  have hfn := (f3 (by rw [hf]; rfl)).1
  have htn := (t3 (by rw [ht]; rfl)).1
  rw [popBranches, if_pos ⟨hf, ht⟩]
  obtain ⟨a1, a2, a3⟩ :=
    updates_spec (fun f => o.mergeFalse eT eF (tt.find f.name) f) ft.entries hfn env hw
  obtain ⟨b1, b2, b3⟩ := updates_spec (o.mergeTrue eT eF)
    (tt.entries.filter fun t => (ft.find t.name).isNone) (nodup_filter _ htn) _ a1
  refine ⟨_, rfl, b1, ?_, keeps_trans a3 b3⟩
  rw [b2, a2, mapVis_mapVis]
  congr 1
  funext n s
  have e1 := find_filter_name tt.entries (fun n => (ft.find n).isNone) n
  unfold apply
  rw [e1]
  unfold merged
  have hff : ft.entries.find? (fun x => x.name == n) = ft.find n := rfl
  have htt : tt.entries.find? (fun x => x.name == n) = tt.find n := rfl
  rw [hff, htt]
  rcases find_cases ft n with ⟨-, g2, -⟩ | ⟨_, e', -, g2, -, g4, -⟩
  · rw [g2]
    cases tt.find n <;> rfl
  · rw [g2]
    simp [g4]

theorem merged_true {le : S → S → Prop} {o : Ops S} (hm : Merges le o) {eF : Bool}
    (tt ft : Table S) (n : Nat) (s : S) : le (over tt n s) (merged o false eF tt ft n s) := by
  unfold over merged
  cases tt.find n <;> cases ft.find n <;> cases eF <;>
    simp [Ops.mergeFalse, Ops.mergeTrue, hm.refl, hm.left, hm.right]

theorem merged_false {le : S → S → Prop} {o : Ops S} (hm : Merges le o) {eT : Bool}
    (tt ft : Table S) (n : Nat) (s : S) : le (over ft n s) (merged o eT false tt ft n s) := by
  unfold over merged
  cases tt.find n <;> cases ft.find n <;> cases eT <;>
    simp [Ops.mergeFalse, Ops.mergeTrue, hm.refl, hm.left, hm.right]

end Splint.Symtab
