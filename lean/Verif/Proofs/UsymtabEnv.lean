import Verif.Spec.Usymtab
import Mathlib.Data.List.Nodup
/-! Environments, and changing the visible variables of one. -/
namespace Splint.Symtab
open Spec

variable {S : Type}

/-- What is known of the variable a name refers to, and its reference. -/
def get (x : Nat) : Env S → Option (S × Ref)
  | [] => none
  | fr :: r =>
    match fr.findIdx? (·.1 == x), fr.find? (·.1 == x) with
    | some i, some p => some (p.2, ⟨r.length, i⟩)
    | _, _ => get x r

/-- A change of the visible variables: not of those with names that have been seen. -/
def mapVis (h : Nat → S → S) : List Nat → Env S → Env S
  | _, [] => []
  | seen, fr :: r =>
    fr.map (fun p => (p.1, if p.1 ∈ seen then p.2 else h p.1 p.2))
      :: mapVis h (fr.map (·.1) ++ seen) r

def NodupE (E : Env S) : Prop := ∀ fr ∈ E, (fr.map (·.1)).Nodup

theorem find_iff {α : Type} {p : α → Bool} {l : List α} :
    (l.findIdx? p = none ∧ l.find? p = none ∧ ∀ a ∈ l, p a = false)
    ∨ ∃ i a, l.findIdx? p = some i ∧ l.find? p = some a ∧ l[i]? = some a ∧ p a = true ∧ a ∈ l := by
  induction l with
  | nil => left; simp
  | cons b l ih =>
    cases hb : p b with
    | true =>
      right
      exact ⟨0, b, by simp [List.findIdx?_cons, hb], by simp [hb], rfl, hb, by simp⟩
    | false =>
      rcases ih with ⟨h1, h2, h3⟩ | ⟨i, a, h1, h2, h3, h4, h5⟩
      · left
        refine ⟨by simp [List.findIdx?_cons, hb, h1], by simp [hb, h2], ?_⟩
        intro a ha
        rcases List.mem_cons.1 ha with rfl | ha
        · exact hb
        · exact h3 a ha
      · right
        exact ⟨i + 1, a, by simp [List.findIdx?_cons, hb, h1], by simp [hb, h2], by simpa using h3,
          h4, List.mem_cons_of_mem _ h5⟩

theorem findIdx_names (fr : List (Nat × S)) (x : Nat) :
    (fr.map (·.1)).findIdx? (· == x) = fr.findIdx? (·.1 == x) := by
  rw [List.findIdx?_map]
  rfl

theorem names_length (E : Env S) : (names E).length = E.length := by simp [names]

theorem get_resolve (x : Nat) (E : Env S) : (get x E).map (·.2) = resolve x (names E) := by
  induction E with
  | nil => rfl
  | cons fr r ih =>
    rw [get, names, List.map_cons, resolve, findIdx_names, List.length_map]
    rcases find_iff (p := fun p : Nat × S => p.1 == x) (l := fr) with ⟨h1, h2, -⟩ | ⟨i, a, h1, h2, -⟩
    · rw [h1, h2]
      exact ih
    · rw [h1, h2]
      rfl

theorem names_mapVis (h : Nat → S → S) (seen : List Nat) (E : Env S) :
    names (mapVis h seen E) = names E := by
  induction E generalizing seen with
  | nil => rfl
  | cons fr r ih =>
    have := ih (fr.map (·.1) ++ seen)
    simp only [names] at this
    simp [mapVis, names, this, Function.comp_def]

theorem length_mapVis (h : Nat → S → S) (seen : List Nat) (E : Env S) :
    (mapVis h seen E).length = E.length := by
  rw [← names_length, names_mapVis, names_length]

theorem nodup_names {E E' : Env S} (h : names E = names E') (hn : NodupE E) : NodupE E' := by
  intro fr hf
  have : fr.map (·.1) ∈ names E' := List.mem_map_of_mem hf
  rw [← h] at this
  obtain ⟨fr', h1, h2⟩ := List.mem_map.1 this
  rw [← h2]
  exact hn fr' h1

theorem mapVis_mapVis (h g : Nat → S → S) (seen : List Nat) (E : Env S) :
    mapVis h seen (mapVis g seen E) = mapVis (fun n s => h n (g n s)) seen E := by
  induction E generalizing seen with
  | nil => rfl
  | cons fr r ih =>
    simp only [mapVis, List.map_map]
    congr 1
    · apply List.map_congr_left
      intro p _
      by_cases hp : p.1 ∈ seen <;> simp [hp]
    · rw [show (List.map ((fun x : Nat × S => x.1) ∘ fun p => (p.1, if p.1 ∈ seen then p.2
          else g p.1 p.2)) fr) = fr.map (·.1) from by simp [Function.comp_def]]
      exact ih _

theorem mapVis_id {h : Nat → S → S} {seen : List Nat} {E : Env S}
    (hh : ∀ n s, n ∉ seen → h n s = s) : mapVis h seen E = E := by
  induction E generalizing seen with
  | nil => rfl
  | cons fr r ih =>
    rw [mapVis, ih (fun n s hn => hh n s (by simp at hn; exact hn.2))]
    congr 1
    conv_rhs => rw [← List.map_id fr]
    apply List.map_congr_left
    intro p _
    by_cases hp : p.1 ∈ seen
    · simp [hp]
    · simp [hp, hh p.1 p.2 hp]

/-- The change of the variable with one name. -/
def only (x : Nat) (f : S → S) : Nat → S → S := fun n s => if n = x then f s else s

theorem assign_eq (x : Nat) (f : S → S) (seen : List Nat) (hx : x ∉ seen) (E : Env S) :
    assign x f E = mapVis (only x f) seen E := by
  induction E generalizing seen with
  | nil => rfl
  | cons fr r ih =>
    rw [assign, mapVis]
    split
    · next hm =>
      congr 1
      · apply List.map_congr_left
        intro p _
        by_cases hp : p.1 = x
        · have : p.1 ∉ seen := hp ▸ hx
          simp [hp, hx, only]
        · by_cases hs : p.1 ∈ seen <;> simp [hp, hs, only]
      · symm
        apply mapVis_id
        intro n s hn
        have : n ≠ x := by
          rintro rfl
          exact hn (List.mem_append_left _ hm)
        simp [only, this]
    · next hm =>
      rw [← ih (fr.map (·.1) ++ seen) (by
        rw [List.mem_append]
        rintro (h | h)
        · exact hm h
        · exact hx h)]
      congr 1
      conv_lhs => rw [← List.map_id fr]
      apply List.map_congr_left
      intro p hp
      have : p.1 ≠ x := by
        rintro rfl
        exact hm (List.mem_map_of_mem hp)
      by_cases hs : p.1 ∈ seen <;> simp [hs, only, this]

theorem assign_mapVis (x : Nat) (f : S → S) (E : Env S) :
    assign x f E = mapVis (only x f) [] E := assign_eq x f [] (by simp) E

theorem names_assign (x : Nat) (f : S → S) (E : Env S) : names (assign x f E) = names E := by
  rw [assign_mapVis, names_mapVis]

theorem get_none_seen {x : Nat} {fr : List (Nat × S)}
    (h : ∀ a ∈ fr, (a.1 == x) = false) : x ∉ fr.map (·.1) := by
  intro hm
  obtain ⟨p, hp, rfl⟩ := List.mem_map.1 hm
  have := h p hp
  simp at this

theorem get_mapVis (x : Nat) (h : Nat → S → S) (seen : List Nat) (E : Env S) (hx : x ∉ seen) :
    get x (mapVis h seen E) = (get x E).map fun p => (h x p.1, p.2) := by
  induction E generalizing seen with
  | nil => rfl
  | cons fr r ih =>
    rw [mapVis, get, get, List.findIdx?_map, List.find?_map]
    simp only [Function.comp_def]
    rcases find_iff (p := fun p : Nat × S => p.1 == x) (l := fr) with
      ⟨h1, h2, h3⟩ | ⟨i, a, h1, h2, -, h4, -⟩
    · rw [h1, h2]
      refine ih _ ?_
      rw [List.mem_append]
      rintro (hm | hm)
      · exact get_none_seen h3 hm
      · exact hx hm
    · rw [h1, h2]
      have : a.1 = x := by simpa using h4
      simp [length_mapVis, this, hx]

theorem get_head {x : Nat} {s : S} {fr : List (Nat × S)} {r : Env S}
    (hn : (fr.map (·.1)).Nodup) (hp : (x, s) ∈ fr) : ∃ ref, get x (fr :: r) = some (s, ref) := by
  rw [get]
  rcases find_iff (p := fun p : Nat × S => p.1 == x) (l := fr) with
      ⟨h1, h2, h3⟩ | ⟨i, a, h1, h2, -, h4, h5⟩
  · have := h3 _ hp
    simp at this
  · rw [h1, h2]
    have ha : a.1 = x := by simpa using h4
    have : a = (x, s) := by
      have := List.inj_on_of_nodup_map hn h5 hp ha
      exact this
    subst this
    exact ⟨_, rfl⟩

theorem get_tail {x : Nat} {fr : List (Nat × S)} {r : Env S} (hx : x ∉ fr.map (·.1)) :
    get x (fr :: r) = get x r := by
  rw [get]
  rcases find_iff (p := fun p : Nat × S => p.1 == x) (l := fr) with
      ⟨h1, h2, h3⟩ | ⟨i, a, h1, h2, -, h4, h5⟩
  · rw [h1, h2]
  · exfalso
    have ha : a.1 = x := by simpa using h4
    exact hx (ha ▸ List.mem_map_of_mem h5)

theorem mapVis_congr {h g : Nat → S → S} {seen : List Nat} {E : Env S} (hn : NodupE E)
    (hh : ∀ n s r, n ∉ seen → get n E = some (s, r) → h n s = g n s) :
    mapVis h seen E = mapVis g seen E := by
  induction E generalizing seen with
  | nil => rfl
  | cons fr r ih =>
    rw [mapVis, mapVis]
    congr 1
    · apply List.map_congr_left
      rintro ⟨n, s⟩ hp
      by_cases hs : n ∈ seen
      · simp [hs]
      · obtain ⟨ref, hg⟩ := get_head (r := r) (hn fr (by simp)) hp
        simp [hs, hh n s ref hs hg]
    · apply ih (fun fr hf => hn fr (by simp [hf]))
      intro n s ref hns hg
      rw [List.mem_append, not_or] at hns
      exact hh n s ref hns.2 (by rw [get_tail hns.1]; exact hg)

theorem Below.names {le : S → S → Prop} {E E' : Env S} (h : Below le E E') :
    Spec.names E = Spec.names E' := by
  unfold Below at h
  induction h with
  | nil => rfl
  | cons hf _ ih =>
    simp only [Spec.names, List.map_cons] at ih ⊢
    rw [ih]
    congr 1
    clear ih
    induction hf with
    | nil => rfl
    | cons hp _ ih => simp [hp.1, ih]

theorem mapVis_le {le : S → S → Prop} {h g : Nat → S → S} {seen : List Nat} {E E' : Env S}
    (hE : Below le E E') (hh : ∀ n a b, le a b → le (h n a) (g n b)) :
    Below le (mapVis h seen E) (mapVis g seen E') := by
  unfold Below at hE ⊢
  induction hE generalizing seen with
  | nil => exact .nil
  | @cons fr fr' r r' hf hr ih =>
    rw [mapVis, mapVis]
    have hnames : fr.map (·.1) = fr'.map (·.1) := by
      clear ih
      induction hf with
      | nil => rfl
      | cons hp _ ih => simp [hp.1, ih]
    refine .cons ?_ ?_
    · rw [List.forall₂_map_left_iff, List.forall₂_map_right_iff]
      refine hf.imp ?_
      rintro ⟨n, a⟩ ⟨m, b⟩ ⟨rfl, hab⟩
      refine ⟨rfl, ?_⟩
      by_cases hs : n ∈ seen
      · simpa [hs] using hab
      · simpa [hs] using hh n a b hab
    · rw [← hnames]
      exact ih

theorem below_refl {le : S → S → Prop} (hr : ∀ a, le a a) (E : Env S) : Below le E E := by
  unfold Below
  induction E with
  | nil => exact .nil
  | cons fr r ih =>
    refine .cons ?_ ih
    clear ih
    induction fr with
    | nil => exact .nil
    | cons p fr ih => exact .cons ⟨rfl, hr _⟩ ih

theorem mapVis_le_self {le : S → S → Prop} {h g : Nat → S → S} (hr : ∀ a, le a a)
    (hh : ∀ n s, le (h n s) (g n s)) (seen : List Nat) (E : Env S) :
    Below le (mapVis h seen E) (mapVis g seen E) := by
  unfold Below
  induction E generalizing seen with
  | nil => exact .nil
  | cons fr r ih =>
    rw [mapVis, mapVis]
    refine .cons ?_ (ih _)
    clear ih
    induction fr with
    | nil => exact .nil
    | cons p fr ih =>
      refine .cons ⟨rfl, ?_⟩ ih
      by_cases hp : p.1 ∈ seen
      · simpa [hp] using hr _
      · simpa [hp] using hh _ _

theorem below_trans {le : S → S → Prop} (ht : ∀ a b c, le a b → le b c → le a c) {E E' E'' : Env S}
    (h : Below le E E') (h' : Below le E' E'') : Below le E E'' := by
  unfold Below at *
  induction h generalizing E'' with
  | nil => cases h'; exact .nil
  | cons hf _ ih =>
    cases h' with
    | cons hf' hr' =>
      refine .cons ?_ (ih hr')
      clear ih hr'
      rename_i l₁ l₂ _ _ l₃ _
      induction hf generalizing l₃ with
      | nil => cases hf'; exact .nil
      | cons hp _ ih =>
        cases hf' with
        | cons hp' hr' => exact .cons ⟨hp.1.trans hp'.1, ht _ _ _ hp.2 hp'.2⟩ (ih hr')

end Splint.Symtab
