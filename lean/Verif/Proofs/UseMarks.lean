import Verif.Spec.UseMarks
import Verif.Proofs.UsymtabCase
/-!
Lemmas for Props/UseMarks: the marks of all tables together are those of `Spec`.
-/
namespace Splint.Symtab.Uses

open Splint.Symtab Spec

/-- the state that is found for a name -/
def sval (x : Nat) (st : Stack Bool) : Option Bool := (search x st).map (·.1)

theorem sval_found {x : Nat} {t : Table Bool} {r : Stack Bool} {e : Entry Bool} (h : t.find x = some e) :
    sval x (t :: r) = some e.state := by
  rcases find_cases t x with ⟨h1, h2, h3⟩ | ⟨i, e', h1, h2, h3, h4, h5⟩
  · rw [h2] at h; cases h
  · rw [h2] at h; cases h
    rw [sval, search, h1, h2]
    rfl

theorem search_none {x : Nat} {t : Table Bool} {r : Stack Bool} (h : t.find x = none) :
    search x (t :: r) = search x (dropEnv (t :: r)) := by
  rcases find_cases t x with ⟨h1, h2, h3⟩ | ⟨i, e', h1, h2, h3, h4, h5⟩
  · rw [search, h1, h2]
  · rw [h2] at h; cases h

theorem sval_none {x : Nat} {t : Table Bool} {r : Stack Bool} (h : t.find x = none) :
    sval x (t :: r) = sval x (dropEnv (t :: r)) := by
  rw [sval, search_none h, sval]

theorem sval_nil (x : Nat) : sval x [] = none := by rw [sval, search]; rfl

theorem dropEnv_head {t t' : Table Bool} (r : Stack Bool) (h : t.kind = t'.kind) : dropEnv (t :: r) = dropEnv (t' :: r) := by
  by_cases hc : t.kind = .cbranch
  · rw [dropEnv_case r hc, dropEnv_case r (h ▸ hc)]
  · by_cases hf : t.kind = .fbranch
    · rw [dropEnv_false r hf, dropEnv_false r (h ▸ hf)]
    · rw [dropEnv_other r hf hc, dropEnv_other r (h ▸ hf) (h ▸ hc)]

theorem dropEnv_nostop {t : Table Bool} (r : Stack Bool) (h : t.kind.stops = false) : dropEnv (t :: r) = r := by
  refine dropEnv_other r ?_ ?_ <;> intro hk <;> rw [hk] at h <;> cases h

/-! Looking up, and changing what is found. -/

theorem lookup_found' {x : Nat} {t : Table Bool} {r : Stack Bool} {i : Nat} (h : t.getIndex x = some i) :
    lookup x (t :: r) = (t :: r, some ⟨0, i⟩) := by
  rw [lookup, h]

theorem update_found {x : Nat} {f : Bool → Bool} {t : Table Bool} {r : Stack Bool} {e : Entry Bool}
    (hn : (t.entries.map (·.name)).Nodup) (h : t.find x = some e) : update x f (t :: r)
    = { t with entries := t.entries.map fun e => if e.name = x then { e with state := f e.state } else e } :: r := by
  rcases find_cases t x with ⟨h1, h2, h3⟩ | ⟨i, e', h1, h2, h3, h4, h5⟩
  · rw [h2] at h; cases h
  · rw [update, lookup_found' h1]
    simp only [setAt]
    have := setAt_entries hn h3 h4 f
    rw [← this]
    rfl

theorem modify_last {α : Type} (l : List α) (a : α) (g : α → α) : (l ++ [a]).modify l.length g = l ++ [g a] := by
  induction l with
  | nil => rfl
  | cons b l ih => simp [List.modify_succ_cons, ih]

theorem update_new {x : Nat} {f : Bool → Bool} {t : Table Bool} {r : Stack Bool} (h : t.find x = none)
    (hs : t.kind.stops = true) : update x f (t :: r) = match search x (dropEnv (t :: r)) with
      | none => t :: r
      | some (s, ref) => { t with entries := t.entries ++ [⟨x, f s, some ref⟩] } :: r := by
  rcases find_cases t x with ⟨h1, h2, h3⟩ | ⟨i, e', h1, h2, h3, h4, h5⟩
  · rw [update, lookup, h1]
    simp only [hs, if_true, addRefEntry, search_none h]
    cases search x (dropEnv (t :: r)) with
    | none => rfl
    | some q =>
      obtain ⟨s, ref⟩ := q
      simp only [setAt, Table.setAt, modify_last]
  · rw [h2] at h; cases h

theorem update_past {x : Nat} {f : Bool → Bool} {t : Table Bool} {r : Stack Bool} (h : t.find x = none)
    (hs : t.kind.stops = false) : update x f (t :: r) = t :: update x f r := by
  rcases find_cases t x with ⟨h1, h2, h3⟩ | ⟨i, e', h1, h2, h3, h4, h5⟩
  · rw [update, lookup, h1, update]
    simp only [hs, Bool.false_eq_true, if_false]
    cases hl : lookup x r with
    | mk a b => cases b <;> simp [setAt]
  · rw [h2] at h; cases h

/-- The three ways. -/
theorem update_cases (x : Nat) (f : Bool → Bool) (t : Table Bool) (r : Stack Bool) (hn : (t.entries.map (·.name)).Nodup) :
    (∃ e, t.find x = some e ∧ e.name = x ∧ e ∈ t.entries ∧ sval x (t :: r) = some e.state ∧ update x f (t :: r)
      = { t with entries := t.entries.map fun e => if e.name = x then { e with state := f e.state } else e } :: r)
    ∨ (t.find x = none ∧ x ∉ t.entries.map (·.name) ∧ t.kind.stops = true ∧ sval x (t :: r) = none ∧ update x f (t :: r) = t :: r)
    ∨ (∃ s ref, t.find x = none ∧ x ∉ t.entries.map (·.name) ∧ t.kind.stops = true ∧ sval x (t :: r) = some s
        ∧ sval x (dropEnv (t :: r)) = some s
        ∧ update x f (t :: r) = { t with entries := t.entries ++ [⟨x, f s, some ref⟩] } :: r)
    ∨ (t.find x = none ∧ x ∉ t.entries.map (·.name) ∧ t.kind.stops = false ∧ sval x (t :: r) = sval x r
        ∧ update x f (t :: r) = t :: update x f r) := by
  rcases find_cases t x with ⟨h1, h2, h3⟩ | ⟨i, e', h1, h2, h3, h4, h5⟩
  · cases hs : t.kind.stops with
    | true =>
      have hu := update_new (f := f) (r := r) h2 hs
      cases hq : search x (dropEnv (t :: r)) with
      | none =>
        rw [hq] at hu
        refine .inr (.inl ⟨h2, h3, rfl, ?_, hu⟩)
        rw [sval_none h2, sval, hq]
        rfl
      | some q =>
        obtain ⟨s, ref⟩ := q
        rw [hq] at hu
        refine .inr (.inr (.inl ⟨s, ref, h2, h3, rfl, ?_, ?_, hu⟩))
        · rw [sval_none h2, sval, hq]; rfl
        · rw [sval, hq]; rfl
    | false =>
      refine .inr (.inr (.inr ⟨h2, h3, rfl, ?_, update_past h2 hs⟩))
      rw [sval_none h2, dropEnv_nostop r hs]
  · exact .inl ⟨e', h2, h4, h5, sval_found h2, update_found hn h2⟩

/-! The invariant. -/

def Inv : Stack Bool → Prop
  | [] => True
  | t :: r => Inv r ∧ (t.entries.map (·.name)).Nodup ∧ (t.kind = .switch → t.entries = [])
      ∧ (t.kind = .fbranch → ∃ u r', r = u :: r' ∧ u.kind = .tbranch)
      ∧ (t.kind.stops = true → ∀ e ∈ t.entries, sval e.name (dropEnv (t :: r)) = some true → e.state = true)

def kinds (st : Stack Bool) : List Kind := st.map (·.kind)

theorem find_mapped (t : Table Bool) (x k : Nat) (f : Bool → Bool) :
    Table.find { t with entries := t.entries.map fun e => if e.name = x then { e with state := f e.state } else e } k
      = (t.find k).map fun e => if e.name = x then { e with state := f e.state } else e :=
  find_map_state t.entries x f k

theorem find_appended (t : Table Bool) (a : Entry Bool) (k : Nat) (h : a.name ∉ t.entries.map (·.name)) :
    Table.find { t with entries := t.entries ++ [a] } k = if k = a.name then some a else t.find k := by
  unfold Table.find
  rw [List.find?_append]
  split
  · rename_i hk
    have : t.entries.find? (·.name == k) = none := by
      rw [List.find?_eq_none]
      intro e he hek
      refine h ?_
      rw [← hk, ← (by simpa using hek : e.name = k)]
      exact List.mem_map_of_mem he
    rw [this]
    simp [hk]
  · rename_i hk
    have : [a].find? (fun e => e.name == k) = none := by
      simp only [List.find?_cons]
      have : (a.name == k) = false := by simpa using fun h => hk h.symm
      simp [this]
    rw [this]
    cases t.entries.find? (·.name == k) <;> rfl

theorem names_mapped (t : Table Bool) (x : Nat) (f : Bool → Bool) :
    (t.entries.map fun e => if e.name = x then { e with state := f e.state } else e).map (·.name) = t.entries.map (·.name) := by
  rw [List.map_map]
  apply List.map_congr_left
  intro e _
  simp only [Function.comp]
  split <;> rfl

theorem nodup_snoc {l : List Nat} {a : Nat} (h : l.Nodup) (ha : a ∉ l) : (l ++ [a]).Nodup := by
  rw [List.nodup_append]
  exact ⟨h, by simp, by rintro x hx y hy rfl; simp at hy; exact ha (hy ▸ hx)⟩

theorem update_kinds (x : Nat) (f : Bool → Bool) (st : Stack Bool) (hi : Inv st) : kinds (update x f st) = kinds st := by
  induction st with
  | nil => rfl
  | cons t r ih =>
    rcases update_cases x f t r hi.2.1 with ⟨e, _, _, _, _, hu⟩ | ⟨_, _, _, _, hu⟩ | ⟨s, ref, _, _, _, _, _, hu⟩ | ⟨_, _, _, _, hu⟩
    · rw [hu]; rfl
    · rw [hu]
    · rw [hu]; rfl
    · rw [hu, kinds, List.map_cons, ← kinds, ih hi.1]; rfl

theorem sval_update (k x : Nat) (f : Bool → Bool) (st : Stack Bool) (hi : Inv st) :
    sval k (update x f st) = if k = x then (sval k st).map f else sval k st := by
  induction st with
  | nil =>
    have : update x f [] = [] := rfl
    rw [this, sval_nil]; simp
  | cons t r ih =>
    rcases update_cases x f t r hi.2.1 with ⟨e, h1, h2, h3, h4, hu⟩ | ⟨h1, _, hs, h4, hu⟩ | ⟨s, ref, h1, h2, hs, h4, h5, hu⟩
      | ⟨h1, _, hs, h4, hu⟩
    · rw [hu]
      have hf := find_mapped t x k f
      cases hk : t.find k with
      | none =>
        rw [hk] at hf
        have hne : k ≠ x := by rintro rfl; rw [h1] at hk; cases hk
        rw [if_neg hne, sval_none hf, sval_none hk]
        exact congrArg (sval k) (dropEnv_head r rfl)
      | some a =>
        rw [hk] at hf
        rw [sval_found hf, sval_found hk]
        have ha : a.name = k := by
          have := List.find?_some hk
          simpa using this
        by_cases hkx : k = x
        · simp only [if_pos hkx, if_pos (ha.trans hkx), Option.map_some]
        · simp only [if_neg hkx, if_neg (fun h => hkx (ha.symm.trans h))]
    · rw [hu]
      split
      · rename_i hk; rw [hk, h4]; rfl
      · rfl
    · rw [hu]
      have hf := find_appended t ⟨x, f s, some ref⟩ k h2
      by_cases hk : k = x
      · rw [if_pos hk] at hf
        rw [if_pos hk, sval_found hf, hk, h4]; rfl
      · rw [if_neg hk] at hf
        rw [if_neg hk]
        cases hk' : t.find k with
        | none =>
          rw [hk'] at hf
          rw [sval_none hf, sval_none hk']
          exact congrArg (sval k) (dropEnv_head r rfl)
        | some a =>
          rw [hk'] at hf
          rw [sval_found hf, sval_found hk']
    · rw [hu]
      cases hk : t.find k with
      | none =>
        rw [sval_none hk, sval_none hk, dropEnv_nostop _ hs, dropEnv_nostop _ hs, ih hi.1]
      | some a =>
        have hne : k ≠ x := by rintro rfl; rw [h1] at hk; cases hk
        rw [sval_found hk, if_neg hne, sval_found hk]

theorem inv_update (x : Nat) (f : Bool → Bool) (st : Stack Bool) (hi : Inv st)
    (hf : ∀ s, sval x st = some s → s = true → f s = true) : Inv (update x f st) := by
  induction st with
  | nil => trivial
  | cons t r ih =>
    obtain ⟨i1, i2, i3, i4, i5⟩ := hi
    rcases update_cases x f t r i2 with ⟨e, h1, h2, h3, h4, hu⟩ | ⟨h1, _, hs, h4, hu⟩ | ⟨s, ref, h1, h2, hs, h4, h5, hu⟩
      | ⟨h1, _, hs, h4, hu⟩
    · rw [hu]
      refine ⟨i1, by rw [names_mapped]; exact i2, ?_, i4, ?_⟩
      · intro hk; simp [i3 hk]
      · intro hs a ha hv
        simp only [List.mem_map] at ha
        obtain ⟨b, hb, rfl⟩ := ha
        replace hv : sval (if b.name = x then { b with state := f b.state } else b).name (dropEnv (t :: r)) = some true := by
          rw [← hv]; exact congrArg _ (dropEnv_head r rfl)
        by_cases hbx : b.name = x
        · simp only [hbx, if_true] at hv ⊢
          have hbs := i5 hs b hb (by rw [hbx]; exact hv)
          have hfx : t.find x = some b := by
            rcases find_cases t x with ⟨_, _, g3⟩ | ⟨i, e', _, g2, _, g4, g5⟩
            · exact absurd (hbx ▸ List.mem_map_of_mem hb) g3
            · have : e' = b := by
                have hinj := List.inj_on_of_nodup_map i2
                exact hinj g5 hb (by rw [g4, hbx])
              rw [g2, this]
          rw [h1] at hfx
          cases hfx
          rw [hbs]
          rw [hbs] at h4
          exact hf true h4 rfl
        · simp only [hbx, if_false] at hv ⊢
          exact i5 hs b hb hv
    · rw [hu]
      exact ⟨i1, i2, i3, i4, i5⟩
    · rw [hu]
      refine ⟨i1, ?_, ?_, i4, ?_⟩
      · simp only [List.map_append, List.map_cons, List.map_nil]
        exact nodup_snoc i2 h2
      · intro hk
        simp only at hk
        rw [hk] at hs
        cases hs
      · intro hs' a ha hv
        replace hv : sval a.name (dropEnv (t :: r)) = some true := by
          rw [← hv]; exact congrArg _ (dropEnv_head r rfl)
        rcases List.mem_append.mp ha with ha | ha
        · exact i5 hs a ha hv
        · have : a = ⟨x, f s, some ref⟩ := by simpa using ha
          rw [this] at hv ⊢
          simp only at hv ⊢
          rw [h5] at hv
          exact hf s h4 (Option.some.inj hv)
    · rw [hu]
      refine ⟨ih i1 (fun s hs' => hf s (by rw [h4]; exact hs')), i2, i3, ?_, ?_⟩
      · intro hk; rw [hk] at hs; cases hs
      · intro hs'; rw [hs] at hs'; cases hs'

/-! The marks of all tables together. `P`: marks of copies in tables further in. -/

def marked (t : Table Bool) (k : Nat) : Bool := t.entries.any fun e => e.name == k && e.state

def hasName (t : Table Bool) (k : Nat) : Bool := t.entries.any fun e => e.name == k

def abs (P : Nat → Bool) : Stack Bool → List Scope
  | [] => []
  | t :: r =>
    if t.kind = .normal then
      t.entries.map (fun e => (e.name, e.state || P e.name)) :: abs (fun k => P k && !hasName t k) r
    else abs (fun k => P k || marked t k) r

def abs0 : Stack Bool → List Scope := abs fun _ => false

def pend (P : Nat → Bool) (x : Nat) (b : Bool) : Nat → Bool := fun k => P k || (b && k == x)

theorem abs_normal {P : Nat → Bool} {t : Table Bool} {r : Stack Bool} (h : t.kind = .normal) : abs P (t :: r)
    = t.entries.map (fun e => (e.name, e.state || P e.name)) :: abs (fun k => P k && !hasName t k) r := by
  rw [abs, if_pos h]

theorem abs_branch {P : Nat → Bool} {t : Table Bool} {r : Stack Bool} (h : t.kind ≠ .normal) : abs P (t :: r)
    = abs (fun k => P k || marked t k) r := by
  rw [abs, if_neg h]

theorem abs_normal_with {P : Nat → Bool} {t : Table Bool} {r : Stack Bool} (es : List (Entry Bool)) (h : t.kind = .normal) :
    abs P ({ t with entries := es } :: r)
    = es.map (fun e => (e.name, e.state || P e.name)) :: abs (fun k => P k && !hasName { t with entries := es } k) r :=
  abs_normal h

theorem abs_branch_with {P : Nat → Bool} {t : Table Bool} {r : Stack Bool} (es : List (Entry Bool)) (h : t.kind ≠ .normal) :
    abs P ({ t with entries := es } :: r) = abs (fun k => P k || marked { t with entries := es } k) r :=
  abs_branch h

theorem hasName_iff (t : Table Bool) (k : Nat) : hasName t k = true ↔ k ∈ t.entries.map (·.name) := by
  simp [hasName]

/-- a pending mark that makes no difference to any of the tables -/
theorem abs_absorbed (x : Nat) : ∀ (n : Nat) (st : Stack Bool), st.length ≤ n → Inv st → sval x st ≠ some false → ∀ P,
    abs (pend P x true) st = abs P st := by
  intro n
  induction n with
  | zero =>
    intro st hl hi hv P
    have : st = [] := List.length_eq_zero_iff.mp (by omega)
    subst this
    rfl
  | succ n ih =>
    intro st hl hi hv P
    cases st with
    | nil => rfl
    | cons t r =>
      obtain ⟨i1, i2, i3, i4, i5⟩ := hi
      simp only [List.length_cons] at hl
      rcases find_cases t x with ⟨h1, h2, h3⟩ | ⟨i, e, h1, h2, h3, h4, h5⟩
      · -- further out
        rw [sval_none h2] at hv
        have hx : hasName t x = false := by
          rw [Bool.eq_false_iff, ne_eq, hasName_iff]; exact h3
        have rest : ∀ Q, abs (pend Q x true) r = abs Q r := by
          intro Q
          by_cases hc : t.kind = .cbranch
          · rw [dropEnv_case r hc] at hv
            have key : ∀ (r : Stack Bool), r.length ≤ n → Inv r → sval x (r.dropWhile (·.kind == .cbranch)) ≠ some false → ∀ Q,
                abs (pend Q x true) r = abs Q r := by
              intro r
              induction r with
              | nil => intro _ _ _ Q; rfl
              | cons u r ihr =>
                intro hl' hi' hv' Q
                rw [List.dropWhile_cons] at hv'
                by_cases hu : u.kind = .cbranch
                · rw [if_pos (by simp [hu])] at hv'
                  rw [abs_branch (by rw [hu]; decide), abs_branch (by rw [hu]; decide)]
                  have := ihr (by simp only [List.length_cons] at hl'; omega) hi'.1 hv' (fun k => Q k || marked u k)
                  rw [← this]
                  congr 1
                  funext k
                  simp only [pend]
                  cases Q k <;> cases marked u k <;> simp
                · rw [if_neg (by simp [hu])] at hv'
                  exact ih _ hl' hi' hv' Q
            exact key r (by omega) i1 hv Q
          · by_cases hf : t.kind = .fbranch
            · rw [dropEnv_false r hf] at hv
              obtain ⟨u, r', rfl, hu⟩ := i4 hf
              rw [List.tail_cons] at hv
              rw [abs_branch (by rw [hu]; decide), abs_branch (by rw [hu]; decide)]
              have := ih r' (by simp only [List.length_cons] at hl; omega) i1.1 hv (fun k => Q k || marked u k)
              rw [← this]
              congr 1
              funext k
              simp only [pend]
              cases Q k <;> cases marked u k <;> simp
            · rw [dropEnv_other r hf hc] at hv
              exact ih r (by omega) i1 hv Q
        by_cases hk : t.kind = .normal
        · rw [abs_normal hk, abs_normal hk]
          congr 1
          · apply List.map_congr_left
            intro e he
            have : (e.name == x) = false := by
              simp only [beq_eq_false_iff_ne, ne_eq]
              rintro rfl
              exact h3 (List.mem_map_of_mem he)
            simp [pend, this]
          · refine Eq.trans ?_ (rest _)
            congr 1
            funext k
            simp only [pend]
            by_cases hkx : k = x
            · subst hkx; simp [hx]
            · have : (k == x) = false := by simpa using hkx
              simp [this]
        · rw [abs_branch hk, abs_branch hk]
          refine Eq.trans ?_ (rest _)
          congr 1
          funext k
          simp only [pend]
          cases P k <;> cases marked t k <;> simp
      · rw [sval_found h2] at hv
        have he : e.state = true := by
          cases h : e.state with
          | true => rfl
          | false => rw [h] at hv; exact absurd rfl hv
        by_cases hk : t.kind = .normal
        · rw [abs_normal hk, abs_normal hk]
          congr 1
          · apply List.map_congr_left
            intro a ha
            by_cases hax : a.name = x
            · have : a = e := List.inj_on_of_nodup_map i2 ha h5 (by rw [hax, h4])
              rw [this, he]; simp
            · have : (a.name == x) = false := by simpa using hax
              simp [pend, this]
          · congr 1
            funext k
            by_cases hkx : k = x
            · have : hasName t k = true := by
                rw [hasName_iff, hkx, ← h4]; exact List.mem_map_of_mem h5
              simp [this]
            · have : (k == x) = false := by simpa using hkx
              simp [pend, this]
        · rw [abs_branch hk, abs_branch hk]
          congr 1
          funext k
          by_cases hkx : k = x
          · have : marked t k = true := by
              rw [marked, List.any_eq_true]
              exact ⟨e, h5, by simp [h4, hkx, he]⟩
            simp [this]
          · have : (k == x) = false := by simpa using hkx
            simp [pend, this]

theorem absorbed {x : Nat} {st : Stack Bool} (hi : Inv st) (hv : sval x st ≠ some false) (P : Nat → Bool) (b : Bool) :
    abs (pend P x b) st = abs P st := by
  cases b with
  | true => exact abs_absorbed x _ st (Nat.le_refl _) hi hv P
  | false => congr 1; funext k; simp [pend]

theorem marked_mapped (t : Table Bool) (x k : Nat) (f : Bool → Bool) (e : Entry Bool) (hn : (t.entries.map (·.name)).Nodup)
    (he : e ∈ t.entries) (hx : e.name = x) (b : Bool) (hf : f e.state = (e.state || b)) :
    marked { t with entries := t.entries.map fun e => if e.name = x then { e with state := f e.state } else e } k
      = (marked t k || (b && k == x)) := by
  have huniq : ∀ a ∈ t.entries, a.name = x → a = e := fun a ha hax =>
    List.inj_on_of_nodup_map hn ha he (by rw [hax, hx])
  rw [Bool.eq_iff_iff]
  simp only [marked, List.any_eq_true, List.mem_map, Bool.or_eq_true, Bool.and_eq_true, beq_iff_eq]
  constructor
  · rintro ⟨a, ⟨c, hc, rfl⟩, h1, h2⟩
    by_cases hcx : c.name = x
    · have := huniq c hc hcx
      subst this
      simp only [hcx, if_true] at h1 h2
      rw [hf, Bool.or_eq_true] at h2
      rcases h2 with h2 | h2
      · exact .inl ⟨c, hc, by rw [hcx]; exact h1, h2⟩
      · exact .inr ⟨h2, h1.symm⟩
    · simp only [hcx, if_false] at h1 h2
      exact .inl ⟨c, hc, h1, h2⟩
  · rintro (⟨a, ha, h1, h2⟩ | ⟨hb, hk⟩)
    · refine ⟨_, ⟨a, ha, rfl⟩, ?_, ?_⟩
      · split <;> exact h1
      · split
        · rename_i hax
          have := huniq a ha hax
          subst this
          show f a.state = true
          rw [hf, h2]; rfl
        · exact h2
    · refine ⟨_, ⟨e, he, rfl⟩, ?_, ?_⟩
      · simp [hx, hk]
      · simp [hx, hf, hb]

/-- Marking what is found is the same as a pending mark. -/
theorem abs_update (x : Nat) (f : Bool → Bool) (b : Bool) (st : Stack Bool) (hi : Inv st)
    (hf : ∀ s, sval x st = some s → f s = (s || b)) : ∀ P, abs P (update x f st) = abs (pend P x b) st := by
  induction st with
  | nil => intro P; rfl
  | cons t r ih =>
    intro P
    have hi' := hi
    obtain ⟨i1, i2, i3, i4, i5⟩ := hi
    rcases update_cases x f t r i2 with ⟨e, h1, h2, h3, h4, hu⟩ | ⟨h1, h2, hs, h4, hu⟩ | ⟨s, ref, h1, h2, hs, h4, h5, hu⟩
      | ⟨h1, h2, hs, h4, hu⟩
    · rw [hu]
      have hfe := hf _ h4
      by_cases hk : t.kind = .normal
      · rw [abs_normal_with _ hk, abs_normal hk]
        congr 1
        · rw [List.map_map]
          apply List.map_congr_left
          intro a ha
          simp only [Function.comp]
          by_cases hax : a.name = x
          · have : a = e := List.inj_on_of_nodup_map i2 ha h3 (by rw [hax, h2])
            subst this
            simp only [hax, if_true, hfe, pend, beq_self_eq_true, Bool.and_true]
            cases a.state <;> cases b <;> cases P x <;> rfl
          · have : (a.name == x) = false := by simpa using hax
            simp only [if_neg hax, pend, this, Bool.and_false, Bool.or_false]
        · congr 1
          funext k
          have hh : hasName { t with entries := t.entries.map fun e => if e.name = x then { e with state := f e.state } else e } k
              = hasName t k := by
            rw [Bool.eq_iff_iff, hasName_iff, hasName_iff]
            simp only [names_mapped]
          rw [hh]
          by_cases hkx : k = x
          · have : hasName t k = true := by
              rw [hasName_iff, hkx, ← h2]; exact List.mem_map_of_mem h3
            simp [this]
          · have : (k == x) = false := by simpa using hkx
            simp [pend, this]
      · rw [abs_branch_with _ hk, abs_branch hk]
        congr 1
        funext k
        rw [marked_mapped t x k f e i2 h3 h2 b hfe]
        simp only [pend]
        cases P k <;> cases marked t k <;> simp
    · rw [hu, absorbed hi' (by rw [h4]; simp)]
    · rw [hu]
      have hk : t.kind ≠ .normal := by intro hk; rw [hk] at hs; cases hs
      have hm : ∀ k, marked { t with entries := t.entries ++ [⟨x, f s, some ref⟩] } k = (marked t k || ((s || b) && k == x)) := by
        intro k
        simp only [marked, List.any_append, List.any_cons, List.any_nil, Bool.or_false, hf s h4]
        by_cases hkx : k = x
        · subst hkx; simp
        · have h6 : (k == x) = false := by simpa using hkx
          have h7 : (x == k) = false := by simpa using fun h => hkx h.symm
          simp [h6, h7]
      rw [abs_branch_with _ hk]
      have e1 : (fun k => P k || marked { t with entries := t.entries ++ [⟨x, f s, some ref⟩] } k)
          = fun k => pend P x (s || b) k || marked t k := by
        funext k
        rw [hm]
        simp only [pend]
        cases P k <;> cases marked t k <;> simp
      rw [e1, ← abs_branch (r := r) hk]
      cases hsv : s with
      | false => simp
      | true =>
        have hv : sval x (t :: r) ≠ some false := by rw [h4, hsv]; simp
        rw [absorbed hi' hv, absorbed hi' hv]
    · rw [hu]
      have hr := ih i1 (fun s hs' => hf s (by rw [h4]; exact hs'))
      have hx : hasName t x = false := by
        rw [Bool.eq_false_iff, ne_eq, hasName_iff]; exact h2
      by_cases hk : t.kind = .normal
      · rw [abs_normal hk, abs_normal hk, hr]
        congr 1
        · apply List.map_congr_left
          intro a ha
          have : (a.name == x) = false := by
            simp only [beq_eq_false_iff_ne, ne_eq]
            rintro rfl
            exact h2 (List.mem_map_of_mem ha)
          simp [pend, this]
        · congr 1
          funext k
          simp only [pend]
          by_cases hkx : k = x
          · subst hkx; simp [hx]
          · have : (k == x) = false := by simpa using hkx
            simp [this]
      · rw [abs_branch hk, abs_branch hk, hr]
        congr 1
        funext k
        simp only [pend]
        cases P k <;> cases marked t k <;> simp

/-- marks of a list of entries -/
def marks (b : Entry Bool → Bool) (es : List (Entry Bool)) (P : Nat → Bool) : Nat → Bool :=
  fun k => P k || es.any fun e => e.name == k && b e

theorem updates_all (g : Entry Bool → Bool → Bool) (b : Entry Bool → Bool) (es : List (Entry Bool))
    (hn : (es.map (·.name)).Nodup) : ∀ st, Inv st → (∀ e ∈ es, ∀ s, sval e.name st = some s → g e s = (s || b e)) →
    Inv (updates g es st) ∧ kinds (updates g es st) = kinds st ∧ ∀ P, abs P (updates g es st) = abs (marks b es P) st := by
  induction es with
  | nil =>
    intro st hi _
    refine ⟨hi, rfl, ?_⟩
    intro P
    congr 1
    funext k
    simp [marks]
  | cons e es ih =>
    intro st hi hg
    rw [List.map_cons, List.nodup_cons] at hn
    have h1 := hg e List.mem_cons_self
    have hi' : Inv (update e.name (g e) st) := by
      refine inv_update _ _ _ hi ?_
      intro s hs ht
      rw [h1 s hs, ht]; rfl
    obtain ⟨a1, a2, a3⟩ := ih hn.2 _ hi' (by
      intro a ha s hs
      have hne : a.name ≠ e.name := by
        intro h
        exact hn.1 (h ▸ List.mem_map_of_mem ha)
      rw [sval_update _ _ _ _ hi, if_neg hne] at hs
      exact hg a (List.mem_cons_of_mem _ ha) s hs)
    rw [updates]
    refine ⟨a1, by rw [a2, update_kinds _ _ _ hi], ?_⟩
    intro P
    rw [a3, abs_update _ _ (b e) _ hi h1]
    congr 1
    funext k
    simp only [pend, marks, List.any_cons]
    have : (e.name == k) = (k == e.name) := by
      by_cases h : k = e.name
      · simp [h]
      · have h1 : (k == e.name) = false := by simpa using h
        have h2 : (e.name == k) = false := by simpa using fun h' => h h'.symm
        rw [h1, h2]
    rw [this]
    cases P k <;> cases (k == e.name) <;> cases b e <;> simp

theorem updates_or (es : List (Entry Bool)) (hn : (es.map (·.name)).Nodup) (st : Stack Bool) (hi : Inv st) :
    Inv (updates (fun c old => old || c.state) es st) ∧ kinds (updates (fun c old => old || c.state) es st) = kinds st
    ∧ ∀ P, abs P (updates (fun c old => old || c.state) es st) = abs (marks (·.state) es P) st :=
  updates_all _ (·.state) es hn st hi (fun _ _ _ _ => rfl)

/-! Leaving branches. -/

theorem marks_state (t : Table Bool) (P : Nat → Bool) : marks (·.state) t.entries P = fun k => P k || marked t k := rfl

theorem altBranch_true {t : Table Bool} (r : Stack Bool) (h : t.kind = .tbranch) :
    altBranch (t :: r) = some (push .fbranch (t :: r)) := by
  rw [altBranch, if_pos h]

theorem push_abs (k : Kind) (st : Stack Bool) (P : Nat → Bool) (h : k ≠ .normal) : abs P (push k st) = abs P st := by
  rw [push.eq_def, abs_branch h]
  congr 1
  funext n
  simp [marked]

theorem push_normal_abs (st : Stack Bool) : abs0 (push .normal st) = [] :: abs0 st := by
  rw [push.eq_def, abs0, abs_normal rfl]
  rfl

theorem push_inv (k : Kind) (st : Stack Bool) (hi : Inv st) (hf : k = .fbranch → ∃ u r', st = u :: r' ∧ u.kind = .tbranch) :
    Inv (push k st) :=
  ⟨hi, by simp, fun _ => rfl, hf, fun _ e he => by simp at he⟩

theorem push_kinds (k : Kind) (st : Stack Bool) : kinds (push k st) = k :: kinds st := rfl

theorem find_state {t : Table Bool} (hn : (t.entries.map (·.name)).Nodup) (k : Nat) :
    marked t k = ((t.find k).map (·.state)).getD false := by
  rcases find_cases t k with ⟨h1, h2, h3⟩ | ⟨i, e, h1, h2, h3, h4, h5⟩
  · rw [h2]
    simp only [Option.map_none, Option.getD_none]
    rw [Bool.eq_false_iff]
    intro hm
    rw [marked, List.any_eq_true] at hm
    obtain ⟨e, he, hm⟩ := hm
    simp only [Bool.and_eq_true, beq_iff_eq] at hm
    exact h3 (hm.1 ▸ List.mem_map_of_mem he)
  · rw [h2]
    simp only [Option.map_some, Option.getD_some]
    rw [Bool.eq_iff_iff, marked, List.any_eq_true]
    constructor
    · rintro ⟨a, ha, hm⟩
      simp only [Bool.and_eq_true, beq_iff_eq] at hm
      have : a = e := List.inj_on_of_nodup_map hn ha h5 (by rw [hm.1, h4])
      rw [← this]; exact hm.2
    · intro he
      exact ⟨e, h5, by simp [h4, he]⟩

theorem nodup_filter' {es : List (Entry Bool)} (p : Entry Bool → Bool) (hn : (es.map (·.name)).Nodup) :
    ((es.filter p).map (·.name)).Nodup := nodup_filter p hn

theorem popBranches_ok {ft tt : Table Bool} {env : Stack Bool} (hi : Inv (ft :: tt :: env)) (hf : ft.kind = .fbranch)
    (ht : tt.kind = .tbranch) : ∃ st, popBranches (ft :: tt :: env) = some st ∧ Inv st ∧ kinds st = kinds env
      ∧ abs0 st = abs0 (ft :: tt :: env) := by
  obtain ⟨⟨i1, j2, j3, j4, j5⟩, i2, i3, i4, i5⟩ := hi
  rw [popBranches, if_pos ⟨hf, ht⟩]
  have hd : dropEnv (ft :: tt :: env) = env := dropEnv_false _ hf
  rw [hd] at i5
  have hfs := i5 (by rw [hf]; rfl)
  obtain ⟨a1, a2, a3⟩ := updates_all (mergeFalse tt) (fun f => f.state || ((tt.find f.name).map (·.state)).getD false) ft.entries i2 env i1 (by
    intro e he s hs
    have h1 : s = true → e.state = true := fun h => hfs e he (by rw [hs, h])
    rw [mergeFalse]
    cases tt.find e.name with
    | none => simp
    | some t =>
      simp only [Option.map_some, Option.getD_some]
      cases s with
      | false => simp
      | true => simp [h1 rfl])
  obtain ⟨b1, b2, b3⟩ := updates_or (tt.entries.filter fun t => (ft.find t.name).isNone) (nodup_filter' _ j2) _ a1
  refine ⟨_, rfl, b1, by rw [b2, a2], ?_⟩
  unfold abs0
  rw [b3, a3, abs_branch (by rw [hf]; decide), abs_branch (by rw [ht]; decide)]
  congr 1
  funext k
  simp only [marks, Bool.false_or]
  rw [Bool.eq_iff_iff]
  simp only [Bool.or_eq_true, List.any_eq_true, Bool.and_eq_true, beq_iff_eq, List.mem_filter]
  constructor
  · rintro (⟨t, ⟨h1, _⟩, h3, h4⟩ | ⟨f, h1, h3, h4⟩)
    · right
      rw [marked, List.any_eq_true]
      exact ⟨t, h1, by simp [h3, h4]⟩
    · rcases h4 with h4 | h4
      · left
        rw [marked, List.any_eq_true]
        exact ⟨f, h1, by simp [h3, h4]⟩
      · right
        rw [find_state j2, ← h3]
        exact h4
  · rintro (h | h)
    · rw [marked, List.any_eq_true] at h
      obtain ⟨f, h1, h2⟩ := h
      simp only [Bool.and_eq_true, beq_iff_eq] at h2
      exact .inr ⟨f, h1, h2.1, .inl h2.2⟩
    · have h' := h
      rw [marked, List.any_eq_true] at h
      obtain ⟨t, h1, h2⟩ := h
      simp only [Bool.and_eq_true, beq_iff_eq] at h2
      rcases find_cases ft k with ⟨g1, g2, g3⟩ | ⟨i, e, g1, g2, g3, g4, g5⟩
      · exact .inl ⟨t, ⟨h1, by rw [h2.1, g2]; rfl⟩, h2.1, h2.2⟩
      · refine .inr ⟨e, g5, g4, .inr ?_⟩
        rw [g4, ← find_state j2]
        exact h'

theorem popTrue_ok {tt : Table Bool} {env : Stack Bool} (hi : Inv (tt :: env)) (ht : tt.kind = .tbranch) :
    ∃ st, popTrueBranch (tt :: env) = some st ∧ Inv st ∧ kinds st = kinds env ∧ abs0 st = abs0 (tt :: env) := by
  rw [popTrueBranch, altBranch_true _ ht]
  have hp := push_inv .fbranch (tt :: env) hi (fun _ => ⟨tt, env, rfl, ht⟩)
  obtain ⟨st, h1, h2, h3, h4⟩ := popBranches_ok hp rfl ht
  refine ⟨st, h1, h2, h3, ?_⟩
  rw [h4]
  exact push_abs .fbranch (tt :: env) _ (by decide)

theorem popOne_ok {tt : Table Bool} {env : Stack Bool} (hi : Inv (tt :: env)) (ht : tt.kind = .tbranch) :
    ∃ st, popOne (tt :: env) = some st ∧ Inv st ∧ kinds st = kinds env ∧ abs0 st = abs0 (tt :: env) := by
  rw [popOne, if_pos ht]
  obtain ⟨a1, a2, a3⟩ := updates_or tt.entries hi.2.1 env hi.1
  refine ⟨_, rfl, a1, a2, ?_⟩
  unfold abs0
  rw [a3, abs_branch (by rw [ht]; decide), marks_state]

/-! Cases. -/

def AllCases (ts : Stack Bool) : Prop := ∀ t ∈ ts, t.kind = .cbranch

def NoCase (st : Stack Bool) : Prop := ∀ t r, st = t :: r → t.kind ≠ .cbranch

theorem dropWhile_ts {ts R : Stack Bool} (h : AllCases ts) (hR : NoCase R) :
    (ts ++ R).dropWhile (·.kind == .cbranch) = R ∧ (ts ++ R).takeWhile (·.kind == .cbranch) = ts := by
  induction ts with
  | nil =>
    cases R with
    | nil => simp
    | cons t r => simp [hR t r rfl]
  | cons t ts ih =>
    have := ih fun u hu => h u (List.mem_cons_of_mem _ hu)
    simp [h t List.mem_cons_self, this.1, this.2]

theorem inv_cases {ts R : Stack Bool} (h : AllCases ts) (hR : NoCase R) : Inv (ts ++ R) ↔ Inv R ∧ ∀ t ∈ ts,
    (t.entries.map (·.name)).Nodup ∧ ∀ e ∈ t.entries, sval e.name R = some true → e.state = true := by
  induction ts with
  | nil => simp
  | cons t ts ih =>
    have ht := h t List.mem_cons_self
    have hts : AllCases ts := fun u hu => h u (List.mem_cons_of_mem _ hu)
    rw [List.cons_append, Inv, ih hts, dropEnv_case _ ht, (dropWhile_ts hts hR).1]
    constructor
    · rintro ⟨⟨a1, a2⟩, a3, a4, a5, a6⟩
      refine ⟨a1, ?_⟩
      intro u hu
      rcases List.mem_cons.mp hu with rfl | hu
      · exact ⟨a3, a6 (by rw [ht]; rfl)⟩
      · exact a2 u hu
    · rintro ⟨a1, a2⟩
      obtain ⟨b1, b2⟩ := a2 t List.mem_cons_self
      exact ⟨⟨a1, fun u hu => a2 u (List.mem_cons_of_mem _ hu)⟩, b1, by rw [ht]; simp, by rw [ht]; simp, fun _ => b2⟩

/-- the marks of cases -/
def caseMarks (ts : Stack Bool) (P : Nat → Bool) : Nat → Bool := fun k => P k || ts.any fun t => marked t k

theorem abs_cases {ts : Stack Bool} (R : Stack Bool) (h : AllCases ts) : ∀ P, abs P (ts ++ R) = abs (caseMarks ts P) R := by
  induction ts with
  | nil =>
    intro P
    congr 1
    funext k
    simp [caseMarks]
  | cons t ts ih =>
    intro P
    rw [List.cons_append, abs_branch (by rw [h t List.mem_cons_self]; decide), ih fun u hu => h u (List.mem_cons_of_mem _ hu)]
    congr 1
    funext k
    simp only [caseMarks, List.any_cons]
    cases P k <;> cases marked t k <;> simp

theorem update_id (x : Nat) (st : Stack Bool) : (lookup x st).1 = update x id st := by
  rw [update]
  cases h : lookup x st with
  | mk a b =>
    cases b with
    | none => rfl
    | some p =>
      simp only
      obtain ⟨d, i⟩ := p
      clear h
      induction a generalizing d with
      | nil => simp [setAt]
      | cons t r ih =>
        cases d with
        | zero =>
          simp only [setAt, Table.setAt]
          have : t.entries.modify i (fun e => { e with state := id e.state }) = t.entries := by
            apply List.ext_getElem?
            intro j
            rw [List.getElem?_modify]
            split <;> simp
          rw [this]
        | succ d => simp only [setAt]; rw [← ih]

theorem lookup_state (x : Nat) (st : Stack Bool) :
    ((lookup x st).2.bind fun p => ((lookup x st).1[p.depth]?).bind fun u => u.entries[p.index]?).map (·.state) = sval x st := by
  induction st with
  | nil => rw [sval_nil]; rfl
  | cons t r ih =>
    rcases find_cases t x with ⟨h1, h2, h3⟩ | ⟨i, e, h1, h2, h3, h4, h5⟩
    · rw [lookup, h1, sval_none h2]
      simp only
      by_cases hs : t.kind.stops = true
      · rw [if_pos hs, addRefEntry, search_none h2, sval]
        cases search x (dropEnv (t :: r)) with
        | none => rfl
        | some q => simp
      · rw [if_neg hs, dropEnv_nostop r (by simpa using hs), ← ih]
        cases hl : lookup x r with
        | mk a b =>
          cases b with
          | none => rfl
          | some p => simp
    · rw [lookup_found' h1, sval_found h2]
      simp [h3]

theorem abs_lookup (x : Nat) (st : Stack Bool) (hi : Inv st) (P : Nat → Bool) : abs P (lookup x st).1 = abs P st := by
  rw [update_id, abs_update x id false st hi (by simp)]
  congr 1
  funext k
  simp [pend]

/-- the entries of the case, merged with what was known before the `switch` -/
theorem caseStep_fold (es : List (Entry Bool)) : ∀ (acc : List (Entry Bool)) (st : Stack Bool), Inv st →
    ∃ st', es.foldl (caseStep orOps) (acc, st)
        = (acc ++ es.map (fun e => { e with state := e.state || (sval e.name st).getD false }), st')
      ∧ Inv st' ∧ kinds st' = kinds st ∧ (∀ k, sval k st' = sval k st) ∧ ∀ P, abs P st' = abs P st := by
  induction es with
  | nil => intro acc st hi; exact ⟨st, by simp, hi, rfl, fun _ => rfl, fun _ => rfl⟩
  | cons e es ih =>
    intro acc st hi
    have hu := update_id e.name st
    have hsv : ∀ k, sval k (lookup e.name st).1 = sval k st := by
      intro k
      rw [hu, sval_update _ _ _ _ hi]
      split
      · simp
      · rfl
    have hinv : Inv (lookup e.name st).1 := by
      rw [hu]; exact inv_update _ _ _ hi (by simp)
    have hk : kinds (lookup e.name st).1 = kinds st := by rw [hu, update_kinds _ _ _ hi]
    have hstep : caseStep orOps (acc, st) e = (acc ++ [{ e with state := e.state || (sval e.name st).getD false }], (lookup e.name st).1) := by
      have hls := lookup_state e.name st
      rw [caseStep]
      simp only
      split
      · rename_i old ho
        rw [ho] at hls
        simp only [Option.map_some] at hls
        rw [← hls]
        rfl
      · rename_i ho
        rw [ho] at hls
        simp only [Option.map_none] at hls
        rw [← hls]
        simp
    obtain ⟨st', a1, a2, a3, a4, a5⟩ := ih (acc ++ [{ e with state := e.state || (sval e.name st).getD false }]) _ hinv
    refine ⟨st', ?_, a2, a3.trans hk, fun k => (a4 k).trans (hsv k), fun P => (a5 P).trans (abs_lookup _ _ hi P)⟩
    rw [List.foldl_cons, hstep, a1]
    simp [hsv]

theorem kinds_noCase {R R' : Stack Bool} (h : NoCase R) (hk : kinds R' = kinds R) : NoCase R' := by
  intro t r he
  subst he
  cases R with
  | nil => simp [kinds] at hk
  | cons u R =>
    simp only [kinds, List.map_cons, List.cons.injEq] at hk
    rw [hk.1]
    exact h u R rfl

/-- several pending marks that make no difference -/
theorem absorbed_list (xs : List Nat) {st : Stack Bool} (hi : Inv st) (h : ∀ x ∈ xs, sval x st = some true) : ∀ P,
    abs (fun k => P k || xs.any (· == k)) st = abs P st := by
  induction xs with
  | nil => intro P; congr 1; funext k; simp
  | cons x xs ih =>
    intro P
    have h1 := ih (fun y hy => h y (List.mem_cons_of_mem _ hy)) (pend P x true)
    rw [← absorbed hi (x := x) (by rw [h x List.mem_cons_self]; simp) P true, ← h1]
    congr 1
    funext k
    simp only [pend, List.any_cons]
    have : (x == k) = (k == x) := by
      by_cases h : k = x
      · simp [h]
      · have h1 : (k == x) = false := by simpa using h
        have h2 : (x == k) = false := by simpa using fun h' => h h'.symm
        rw [h1, h2]
    rw [this]
    cases P k <;> cases (k == x) <;> simp

theorem newCase_ok {ts R : Stack Bool} (h : AllCases ts) (hR : NoCase R) (hne : R ≠ []) (hi : Inv (ts ++ R)) :
    ∃ c ts' R', newCase orOps (ts ++ R) = some (c :: ts' ++ R') ∧ AllCases (c :: ts') ∧ kinds R' = kinds R ∧ Inv (c :: ts' ++ R')
      ∧ abs0 (c :: ts' ++ R') = abs0 (ts ++ R) := by
  have pushed : ∀ t r, ts ++ R = t :: r → ∃ c ts' R', some (push .cbranch (t :: r)) = some (c :: ts' ++ R') ∧ AllCases (c :: ts')
      ∧ kinds R' = kinds R ∧ Inv (c :: ts' ++ R') ∧ abs0 (c :: ts' ++ R') = abs0 (ts ++ R) := by
    intro t r he
    rw [← he]
    refine ⟨_, ts, R, rfl, ?_, rfl, ?_, ?_⟩
    · intro u hu
      rcases List.mem_cons.mp hu with rfl | hu
      · rfl
      · exact h u hu
    · exact push_inv .cbranch (ts ++ R) hi (by simp)
    · exact push_abs .cbranch (ts ++ R) _ (by decide)
  cases ts with
  | nil =>
    cases R with
    | nil => exact absurd rfl hne
    | cons t r =>
      rw [List.nil_append, newCase, if_neg (by simp [hR t r rfl])]
      exact pushed t r rfl
  | cons t ts =>
    have ht := h t List.mem_cons_self
    have hts : AllCases ts := fun u hu => h u (List.mem_cons_of_mem _ hu)
    rw [List.cons_append, newCase]
    by_cases hb : (!t.mustBreak && !t.escape && t.kind == .cbranch) = true
    · rw [if_pos hb, (dropWhile_ts hts hR).1, (dropWhile_ts hts hR).2]
      obtain ⟨g1, g2⟩ := (inv_cases h hR).mp hi
      obtain ⟨R', a1, a2, a3, a4, a5⟩ := caseStep_fold t.entries [] R g1
      simp only [a1, List.nil_append]
      have hall : AllCases ({ t with entries := t.entries.map fun e => { e with state := e.state || (sval e.name R).getD false } } :: ts) := by
        intro u hu
        rcases List.mem_cons.mp hu with rfl | hu
        · exact ht
        · exact hts u hu
      refine ⟨_, ts, R', rfl, hall, a3, ?_, ?_⟩
      · rw [inv_cases hall (kinds_noCase hR a3)]
        refine ⟨a2, ?_⟩
        intro u hu
        rcases List.mem_cons.mp hu with rfl | hu
        · obtain ⟨n1, n2⟩ := g2 t List.mem_cons_self
          refine ⟨by simpa [List.map_map, Function.comp_def] using n1, ?_⟩
          intro e he hv
          simp only [List.mem_map] at he
          obtain ⟨e', he', rfl⟩ := he
          simp only at hv ⊢
          rw [a4] at hv
          simp [hv]
        · obtain ⟨n1, n2⟩ := g2 u (List.mem_cons_of_mem _ hu)
          refine ⟨n1, ?_⟩
          intro e he hv
          rw [a4] at hv
          exact n2 e he hv
      · have e1 := abs_cases R' hall (fun _ => false)
        have e2 := abs_cases R h (fun _ => false)
        unfold abs0
        rw [e1, a5, ← List.cons_append, e2]
        have hx := absorbed_list ((t.entries.filter fun e => (sval e.name R).getD false).map (·.name)) g1 (by
          intro x hx
          simp only [List.mem_map, List.mem_filter] at hx
          obtain ⟨e, ⟨_, h2⟩, rfl⟩ := hx
          cases hs : sval e.name R with
          | none => rw [hs] at h2; simp at h2
          | some s => rw [hs] at h2; simp at h2; rw [h2]) (caseMarks (t :: ts) fun _ => false)
        rw [← hx]
        congr 1
        funext k
        simp only [caseMarks, List.any_cons, Bool.false_or]
        rw [Bool.eq_iff_iff]
        simp only [Bool.or_eq_true, marked, List.any_eq_true, List.mem_map, List.mem_filter, Bool.and_eq_true, beq_iff_eq]
        constructor
        · rintro (⟨e, ⟨e', he', rfl⟩, h1, h2⟩ | h1)
          · simp only [Bool.or_eq_true] at h1 h2
            rcases h2 with h2 | h2
            · exact .inl (.inl ⟨e', he', h1, h2⟩)
            · exact .inr ⟨e'.name, ⟨e', ⟨he', h2⟩, rfl⟩, h1⟩
          · exact .inl (.inr h1)
        · rintro ((⟨e, he, h1, h2⟩ | h1) | ⟨x, ⟨e, ⟨he, h2⟩, rfl⟩, h1⟩)
          · exact .inl ⟨_, ⟨e, he, rfl⟩, h1, by simp [h2]⟩
          · exact .inr h1
          · exact .inl ⟨_, ⟨e, he, rfl⟩, h1, by simp [h2]⟩
    · rw [if_neg hb]
      exact pushed t (ts ++ R) rfl

/-! The end of a `switch`. -/

theorem update_top {x : Nat} {f : Bool → Bool} {l t : Table Bool} (r : Stack Bool) (hl : l.kind = .cbranch) (ht : t.kind = .cbranch)
    (hn : (l.entries.map (·.name)).Nodup) :
    ∃ l', l'.kind = .cbranch ∧ update x f (l :: t :: r) = l' :: t :: r ∧ update x f (l :: r) = l' :: r := by
  cases hx : l.find x with
  | some e => refine ⟨_, ?_, update_found hn hx, update_found hn hx⟩; exact hl
  | none =>
    have hs : l.kind.stops = true := by rw [hl]; rfl
    have hd : dropEnv (l :: t :: r) = dropEnv (l :: r) := by
      rw [dropEnv_case _ hl, dropEnv_case _ hl, List.dropWhile_cons_of_pos (by simp [ht])]
    have h1 := update_new (f := f) (r := t :: r) hx hs
    have h2 := update_new (f := f) (r := r) hx hs
    rw [hd] at h1
    cases hq : search x (dropEnv (l :: r)) with
    | none => rw [hq] at h1 h2; exact ⟨l, hl, h1, h2⟩
    | some q => rw [hq] at h1 h2; refine ⟨_, ?_, h1, h2⟩; exact hl

theorem updates_top (es : List (Entry Bool)) (t : Table Bool) (r : Stack Bool) (ht : t.kind = .cbranch) :
    ∀ (l : Table Bool), l.kind = .cbranch → Inv (l :: r) →
    ∃ l', l'.kind = .cbranch ∧ updates (fun c old => old || c.state) es (l :: t :: r) = l' :: t :: r
      ∧ updates (fun c old => old || c.state) es (l :: r) = l' :: r := by
  induction es with
  | nil => intro l hl _; exact ⟨l, hl, rfl, rfl⟩
  | cons e es ih =>
    intro l hl hi
    obtain ⟨l1, h1, h2, h3⟩ := update_top (x := e.name) (f := fun old => old || e.state) r hl ht hi.2.1
    have hi' : Inv (l1 :: r) := by
      rw [← h3]
      exact inv_update _ _ _ hi (by intro s _ hs; simp [hs])
    obtain ⟨l2, g1, g2, g3⟩ := ih l1 h1 hi'
    refine ⟨l2, g1, ?_, ?_⟩
    · rw [updates, h2, g2]
    · rw [updates, h3, g3]

theorem mergeCase_ok {l t top sw : Table Bool} {us o : Stack Bool} (hc : AllCases (l :: t :: us)) (hs : sw.kind = .switch)
    (hi : Inv (l :: t :: us ++ sw :: top :: o)) :
    ∃ l', mergeCase top.entries (l :: t :: us ++ sw :: top :: o) = l' :: us ++ sw :: top :: o ∧ l'.kind = .cbranch
      ∧ Inv (l' :: us ++ sw :: top :: o) ∧ abs0 (l' :: us ++ sw :: top :: o) = abs0 (l :: t :: us ++ sw :: top :: o) := by
  have hR : NoCase (sw :: top :: o) := by
    intro a b he
    injection he with h1 h2
    rw [← h1, hs]; decide
  have hl := hc l List.mem_cons_self
  have ht := hc t (List.mem_cons_of_mem _ List.mem_cons_self)
  have hc' : AllCases (l :: us) := by
    intro a ha
    rcases List.mem_cons.mp ha with rfl | ha
    · exact hl
    · exact hc a (List.mem_cons_of_mem _ (List.mem_cons_of_mem _ ha))
  obtain ⟨g1, g2⟩ := (inv_cases hc hR).mp hi
  have hi' : Inv (l :: us ++ sw :: top :: o) := by
    rw [inv_cases hc' hR]
    refine ⟨g1, fun a ha => g2 a ?_⟩
    rcases List.mem_cons.mp ha with rfl | ha
    · exact List.mem_cons_self
    · exact List.mem_cons_of_mem _ (List.mem_cons_of_mem _ ha)
  have hnt := (g2 t (List.mem_cons_of_mem _ List.mem_cons_self)).1
  obtain ⟨l1, h1, h2, h3⟩ := updates_top t.entries t (us ++ sw :: top :: o) ht l hl hi'
  obtain ⟨a1, a2, a3⟩ := updates_or t.entries hnt _ hi'
  rw [List.cons_append] at a1 a3
  rw [h3] at a1 a3
  have habs : abs0 (l1 :: (us ++ sw :: top :: o)) = abs0 (l :: t :: us ++ sw :: top :: o) := by
    unfold abs0
    rw [a3, List.cons_append, List.cons_append, abs_branch (by rw [hl]; decide), abs_branch (by rw [hl]; decide),
      abs_branch (by rw [ht]; decide)]
    congr 1
    funext k
    simp only [marks, marked]
    cases (l.entries.any fun e => e.name == k && e.state) <;> simp
  simp only [List.cons_append, mergeCase, h2]
  by_cases hb : (t.escape || t.mustBreak) = true
  · rw [if_pos hb]
    exact ⟨l1, rfl, h1, a1, habs⟩
  · rw [if_neg hb]
    have hto := g1.1.2.1
    obtain ⟨l2, k1, k2, k3⟩ := updates_top (top.entries.filter fun c => (t.find c.name).isNone) t (us ++ sw :: top :: o) ht l1 h1 a1
    obtain ⟨b1, b2, b3⟩ := updates_or (top.entries.filter fun c => (t.find c.name).isNone) (nodup_filter' _ hto) _ a1
    rw [k3] at b1 b3
    rw [k2]
    refine ⟨l2, rfl, k1, b1, ?_⟩
    refine Eq.trans ?_ habs
    unfold abs0
    rw [b3]
    have hcl : AllCases (l1 :: us) := by
      intro a ha
      rcases List.mem_cons.mp ha with rfl | ha
      · exact h1
      · exact hc' a (List.mem_cons_of_mem _ ha)
    rw [← List.cons_append, abs_cases _ hcl, abs_cases _ hcl]
    rw [← absorbed_list (((top.entries.filter fun c => (t.find c.name).isNone).filter (·.state)).map (·.name)) g1 (by
      intro x hx
      simp only [List.mem_map, List.mem_filter] at hx
      obtain ⟨e, ⟨⟨e1, _⟩, e3⟩, rfl⟩ := hx
      have hsw : sw.find e.name = none := by
        rw [Table.find, g1.2.2.1 hs]; rfl
      rw [sval_none hsw, dropEnv_nostop _ (by rw [hs]; rfl)]
      have hm : marked top e.name = true := by
        rw [marked, List.any_eq_true]; exact ⟨e, e1, by simp [e3]⟩
      rw [find_state hto] at hm
      cases hf : top.find e.name with
      | none => rw [hf] at hm; cases hm
      | some a =>
        rw [hf] at hm
        rw [sval_found hf]
        simpa using hm) (caseMarks (l1 :: us) fun _ => false)]
    congr 1
    funext k
    simp only [caseMarks, marks, Bool.false_or]
    rw [Bool.eq_iff_iff]
    simp only [Bool.or_eq_true, List.any_eq_true, List.mem_map, List.mem_filter, Bool.and_eq_true, beq_iff_eq]
    constructor
    · rintro (⟨e, h1, h2, h3⟩ | h)
      · exact .inr ⟨e.name, ⟨e, ⟨h1, h3⟩, rfl⟩, h2⟩
      · exact .inl h
    · rintro (h | ⟨x, ⟨e, ⟨h1, h3⟩, rfl⟩, h2⟩)
      · exact .inr h
      · exact .inl ⟨e, h1, h2, h3⟩

theorem mergeCases_ok (us : Stack Bool) : ∀ {l top sw : Table Bool} {o : Stack Bool}, AllCases (l :: us) → sw.kind = .switch →
    Inv (l :: us ++ sw :: top :: o) →
    ∃ l', mergeCases top.entries us.length (l :: us ++ sw :: top :: o) = l' :: sw :: top :: o ∧ l'.kind = .cbranch
      ∧ Inv (l' :: sw :: top :: o) ∧ abs0 (l' :: sw :: top :: o) = abs0 (l :: us ++ sw :: top :: o) := by
  induction us with
  | nil => intro l top sw o hc hs hi; exact ⟨l, rfl, hc l List.mem_cons_self, hi, rfl⟩
  | cons t us ih =>
    intro l top sw o hc hs hi
    obtain ⟨l1, h1, h2, h3, h4⟩ := mergeCase_ok hc hs hi
    obtain ⟨l2, g1, g2, g3, g4⟩ := ih (l := l1) (top := top) (sw := sw) (o := o) (by
      intro a ha
      rcases List.mem_cons.mp ha with rfl | ha
      · exact h2
      · exact hc a (List.mem_cons_of_mem _ (List.mem_cons_of_mem _ ha))) hs h3
    refine ⟨l2, ?_, g2, g3, g4.trans h4⟩
    rw [List.length_cons, mergeCases, h1, g1]

theorem exitSwitch_ok {l top sw : Table Bool} {us o : Stack Bool} (hc : AllCases (l :: us)) (hs : sw.kind = .switch)
    (hi : Inv (l :: us ++ sw :: top :: o)) :
    ∃ st, exitSwitch (l :: us ++ sw :: top :: o) = some st ∧ Inv st ∧ kinds st = kinds (top :: o)
      ∧ abs0 st = abs0 (l :: us ++ sw :: top :: o) := by
  have hR : NoCase (sw :: top :: o) := by
    intro a b he
    injection he with h1 h2
    rw [← h1, hs]; decide
  obtain ⟨l1, h1, h2, h3, h4⟩ := mergeCases_ok us hc hs hi
  rw [exitSwitch, (dropWhile_ts hc hR).2]
  have hd : (l :: us ++ sw :: top :: o).drop (l :: us).length = sw :: top :: o := List.drop_left
  rw [hd]
  simp only [hs, if_true, List.length_cons]
  rw [h1]
  obtain ⟨a1, a2, a3⟩ := updates_or l1.entries h3.2.1 (top :: o) h3.1.1
  refine ⟨_, rfl, a1, a2, ?_⟩
  rw [← h4]
  unfold abs0
  rw [a3, abs_branch (t := l1) (by rw [h2]; decide), abs_branch (t := sw) (by rw [hs]; decide), marks_state]
  congr 1
  funext k
  have : marked sw k = false := by rw [marked, h3.1.2.2.1 hs]; rfl
  rw [this]
  simp

/-! The flags do not matter. -/

theorem inv_head {t t' : Table Bool} {r : Stack Bool} (hk : t'.kind = t.kind) (he : t'.entries = t.entries) (h : Inv (t :: r)) :
    Inv (t' :: r) := by
  obtain ⟨h1, h2, h3, h4, h5⟩ := h
  rw [Inv, hk, he, dropEnv_head r hk]
  exact ⟨h1, h2, h3, h4, h5⟩

theorem abs_flags {t t' : Table Bool} {r : Stack Bool} (hk : t'.kind = t.kind) (he : t'.entries = t.entries) (P : Nat → Bool) :
    abs P (t' :: r) = abs P (t :: r) := by
  rw [abs, abs, hk, he]
  simp only [marked, hasName, he]

theorem setEnd_same (e : End) (t : Table Bool) (r : Stack Bool) : ∃ t', setEnd e (t :: r) = t' :: r ∧ t'.kind = t.kind
    ∧ t'.entries = t.entries := by
  cases e <;> exact ⟨_, rfl, rfl, rfl⟩

/-! Blocks. -/

theorem declare_ok (x : Nat) {t : Table Bool} {r : Stack Bool} (hi : Inv (t :: r)) (hk : t.kind = .normal) :
    Inv (declare x false (t :: r)) ∧ kinds (declare x false (t :: r)) = kinds (t :: r)
      ∧ abs0 (declare x false (t :: r)) = enter x (abs0 (t :: r)) := by
  obtain ⟨h1, h2, h3, h4, h5⟩ := hi
  have hhas : Scope.has (t.entries.map fun e => (e.name, e.state || false)) x = (t.find x).isSome := by
    rw [Scope.has, List.any_map, Table.find, Bool.eq_iff_iff, List.find?_isSome]
    simp
  rw [declare, abs0, abs_normal hk, enter]
  rw [hhas]
  rcases find_cases t x with ⟨g1, g2, g3⟩ | ⟨i, e, g1, g2, g3, g4, g5⟩
  · rw [g1, g2]
    simp only [Option.isSome_none, Bool.false_eq_true, if_false]
    refine ⟨⟨h1, ?_, by simp [hk], by simp [hk], ?_⟩, rfl, ?_⟩
    · rw [List.map_append]
      exact nodup_snoc h2 g3
    · intro hs
      simp [hk, Kind.stops] at hs
    · rw [abs_normal_with _ hk]
      simp
  · rw [g1, g2]
    simp only [Option.isSome_some, if_true]
    exact ⟨⟨h1, h2, h3, h4, h5⟩, by first | trivial | rfl, abs_normal hk⟩

theorem leave_ok {t u : Table Bool} {r : Stack Bool} (hi : Inv (t :: u :: r)) (hk : t.kind = .normal) (hu : u.kind ≠ .switch) :
    ∃ st, leave (t :: u :: r) = some (st, noUse (abs0 (t :: u :: r))) ∧ Inv st ∧ kinds st = kinds (u :: r)
      ∧ abs0 st = (abs0 (t :: u :: r)).tail := by
  rw [leave, if_neg (by rw [hk]; decide), if_pos hk]
  simp only [if_neg hu]
  refine ⟨{ u with mustBreak := t.mustBreak, escape := t.escape } :: r, ?_, inv_head (t := u) rfl rfl hi.1, rfl, ?_⟩
  · congr 2
    unfold abs0
    rw [abs_normal hk, noUse, List.headD_cons, unused, List.filter_map, List.map_map]
    simp [Function.comp_def]
  · unfold abs0
    rw [abs_flags (t := u) (t' := { u with mustBreak := t.mustBreak, escape := t.escape }) rfl rfl, abs_normal (t := t) hk]
    simp

/-- The block of a `switch`. -/
theorem leave_switch {ts : Stack Bool} {t sw : Table Bool} {r : Stack Bool} (hc : AllCases ts) (hk : t.kind = .normal)
    (hs : sw.kind = .switch) (hi : Inv (ts ++ t :: sw :: r)) (he : t.entries = []) :
    ∃ sw', leave (ts ++ t :: sw :: r) = some (ts ++ sw' :: r, []) ∧ sw'.kind = .switch ∧ Inv (ts ++ sw' :: r)
      ∧ abs0 (ts ++ sw' :: r) = (abs0 (ts ++ t :: sw :: r)).tail := by
  have hR : NoCase (t :: sw :: r) := by
    intro a b he
    injection he with h1 h2
    rw [← h1, hk]; decide
  obtain ⟨g1, g2⟩ := (inv_cases hc hR).mp hi
  have hR' : NoCase ({ sw with mustBreak := t.mustBreak, escape := t.escape } :: r) := by
    intro a b he
    injection he with h1 h2
    rw [← h1]; simp [hs]
  have hl : ∀ ts : Stack Bool, AllCases ts → leave (ts ++ t :: sw :: r)
      = some (ts ++ { sw with mustBreak := t.mustBreak, escape := t.escape } :: r, []) := by
    intro ts hc
    induction ts with
    | nil => rw [List.nil_append, leave.eq_def]; simp [hk, hs]
    | cons c ts ih =>
      rw [List.cons_append, leave.eq_def]; simp only; rw [if_pos (hc c List.mem_cons_self), ih fun u hu => hc u (List.mem_cons_of_mem _ hu)]
      rfl
  have hswi : Inv ({ sw with mustBreak := t.mustBreak, escape := t.escape } :: r) := inv_head (t := sw) rfl rfl g1.1
  have hsame : ∀ k, sval k ({ sw with mustBreak := t.mustBreak, escape := t.escape } :: r) = sval k (t :: sw :: r) := by
    intro k
    have e1 : Table.find { sw with mustBreak := t.mustBreak, escape := t.escape } k = none := by
      rw [Table.find]; simp only; rw [g1.1.2.2.1 hs]; rfl
    have e2 : sw.find k = none := by rw [Table.find, g1.1.2.2.1 hs]; rfl
    have e3 : t.find k = none := by rw [Table.find, he]; rfl
    rw [sval_none e1, dropEnv_nostop _ (by simp only; rw [hs]; rfl), sval_none e3, dropEnv_nostop _ (by rw [hk]; rfl), sval_none e2,
      dropEnv_nostop _ (by rw [hs]; rfl)]
  refine ⟨_, hl ts hc, hs, ?_, ?_⟩
  · rw [inv_cases hc hR']
    refine ⟨hswi, fun a ha => ⟨(g2 a ha).1, fun e he' hv => (g2 a ha).2 e he' ?_⟩⟩
    rw [← hsame]; exact hv
  · unfold abs0
    rw [abs_cases _ hc, abs_cases _ hc, abs_normal (t := t) hk, List.tail_cons, abs_flags (t := sw) (t' := { sw with mustBreak := t.mustBreak, escape := t.escape }) rfl rfl]
    congr 1
    funext k
    simp [hasName, he]

/-! A use. -/

theorem abs_mark (x : Nat) (st : Stack Bool) : ∀ P, abs (pend P x true) st = mark x (abs P st) := by
  induction st with
  | nil => intro P; rfl
  | cons t r ih =>
    intro P
    by_cases hk : t.kind = .normal
    · rw [abs_normal hk, abs_normal hk, mark]
      have hhas : Scope.has (t.entries.map fun e => (e.name, e.state || P e.name)) x = hasName t x := by
        rw [Scope.has, List.any_map, hasName]
        rfl
      rw [hhas]
      by_cases hx : hasName t x = true
      · rw [if_pos hx]
        congr 1
        · rw [List.map_map]
          apply List.map_congr_left
          intro e he
          simp only [Function.comp_apply, pend]
          by_cases hn : e.name = x
          · simp [hn]
          · have : (e.name == x) = false := by simpa using hn
            simp [hn, this]
        · congr 1
          funext k
          simp only [pend]
          by_cases hn : k = x
          · subst hn; simp [hx]
          · have : (k == x) = false := by simpa using hn
            simp [this]
      · rw [if_neg hx]
        congr 1
        · apply List.map_congr_left
          intro e he
          have hn : e.name ≠ x := by
            intro hn
            apply hx
            rw [hasName, List.any_eq_true]
            exact ⟨e, he, by simp [hn]⟩
          have : (e.name == x) = false := by simpa using hn
          simp [pend, this]
        · rw [← ih]
          congr 1
          funext k
          simp only [pend]
          by_cases hn : k = x
          · subst hn; simp [Bool.eq_false_iff.mpr hx]
          · have : (k == x) = false := by simpa using hn
            simp [this]
    · rw [abs_branch hk, abs_branch hk, ← ih]
      congr 1
      funext k
      simp only [pend]
      cases P k <;> cases (k == x) <;> simp

end Splint.Symtab.Uses
