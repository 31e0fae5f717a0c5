import Verif.Spec.Init
namespace Splint.Init
open Spec

variable {E : Type} {cfg : Cfg E}

theorem mem_opt {p : List Nat} {k : Kind} {m : Msg} : m ∈ (opt cfg p k).1 ↔ m = (p, k) ∧ cfg.on k = true := by
  unfold opt
  split_ifs with h <;> simp [h]

theorem opt_snd {p : List Nat} {k : Kind} (h : (opt cfg p k).2 = true) : (opt cfg p k).1 ≠ [] := by
  unfold opt at h ⊢
  split_ifs with hk
  · simp
  · rw [if_neg hk] at h; cases h

theorem mem_imp {p : List Nat} {t : Ty} {m : Msg} :
    m ∈ imp cfg p t ↔ t = .unknown ∧ m = (p, .imptype) ∧ cfg.on .imptype = true := by
  cases t <;> simp [imp, mem_opt]

theorem mem_sizeMsg {p : List Nat} {a n : Nat} {m : Msg} :
    m ∈ (sizeMsg cfg p a n).1 ↔ (n < a ∧ m = (p, .tooLarge) ∧ cfg.on .tooLarge = true)
      ∨ (a < n ∧ m = (p, .tooSmall) ∧ cfg.on .tooSmall = true) := by
  unfold sizeMsg
  by_cases h : a = n
  · subst h; simp
  · rw [if_pos h]
    by_cases hl : a > n
    · rw [if_pos hl, mem_opt]
      have : ¬ a < n := by omega
      simp [hl, this]
    · rw [if_neg hl, mem_opt]
      have h1 : ¬ n < a := by omega
      have h2 : a < n := by omega
      simp [h1, h2]

/-- an element is left out -/
def Skips (cfg : Cfg E) (total : Nat) (u : Ty) (v : Ini E) : Prop :=
  total = 1 ∧ isStringIni cfg v = true ∧ isChar cfg u = true

theorem elems_cons {p : List Nat} {u : Ty} {total i ne : Nat} {v : Ini E} {vs : List (Ini E)} :
    elems cfg p u total i ne (v :: vs)
      = if total = 1 ∧ isStringIni cfg v = true ∧ isChar cfg u = true then elems cfg p u total (i + 1) ne vs
        else if (check cfg (p ++ [i]) u v).2 = true then
          if ne + 1 > 3 ∧ total > 6 then ((check cfg (p ++ [i]) u v).1 ++ [(p, .additional)], true)
          else ((check cfg (p ++ [i]) u v).1 ++ (elems cfg p u total (i + 1) (ne + 1) vs).1, true)
        else ((check cfg (p ++ [i]) u v).1 ++ (elems cfg p u total (i + 1) ne vs).1,
          (elems cfg p u total (i + 1) ne vs).2) := by
  rw [elems]

theorem isChar_iff {u : Ty} : isChar cfg u = true ↔ IsChar cfg u := by
  cases u <;> simp [isChar, IsChar]

theorem elems_sound {p : List Nat} {u : Ty} {total : Nat} {m : Msg} (hm : m.2 ≠ .additional) :
    ∀ (vs : List (Ini E)) (i ne : Nat), m ∈ (elems cfg p u total i ne vs).1 →
      ∃ j v, vs[j]? = some v ∧ ¬ Skips cfg total u v ∧ m ∈ (check cfg (p ++ [i + j]) u v).1 := by
  intro vs
  induction vs with
  | nil => intro i ne h; simp [elems] at h
  | cons v vs ih =>
    intro i ne h
    have shift : ∀ ne, m ∈ (elems cfg p u total (i + 1) ne vs).1 →
        ∃ j w, (v :: vs)[j]? = some w ∧ ¬ Skips cfg total u w ∧ m ∈ (check cfg (p ++ [i + j]) u w).1 := by
      intro ne h
      obtain ⟨j, w, h1, h2, h3⟩ := ih _ _ h
      exact ⟨j + 1, w, by simpa using h1, h2, by rwa [show i + (j + 1) = i + 1 + j by omega]⟩
    rw [elems_cons] at h
    split_ifs at h with hs hr hb
    · exact shift _ h
    · rcases List.mem_append.1 h with h | h
      · exact ⟨0, v, rfl, hs, by simpa using h⟩
      · simp only [List.mem_singleton] at h; rw [h] at hm; exact absurd rfl hm
    · rcases List.mem_append.1 h with h | h
      · exact ⟨0, v, rfl, hs, by simpa using h⟩
      · exact shift _ h
    · rcases List.mem_append.1 h with h | h
      · exact ⟨0, v, rfl, hs, by simpa using h⟩
      · exact shift _ h

theorem elems_complete {p : List Nat} {u : Ty} {total : Nat} {m : Msg} (ht : total ≤ 6) {v : Ini E}
    (hs : ¬ Skips cfg total u v) :
    ∀ (vs : List (Ini E)) (i ne j : Nat), vs[j]? = some v → m ∈ (check cfg (p ++ [i + j]) u v).1 →
      m ∈ (elems cfg p u total i ne vs).1 := by
  intro vs
  induction vs with
  | nil => intro i ne j h; simp at h
  | cons w vs ih =>
    intro i ne j h hm
    cases j with
    | zero =>
      simp only [List.getElem?_cons_zero, Option.some.injEq] at h
      subst h
      unfold Skips at hs
      rw [elems_cons, if_neg hs]
      simp only [Nat.add_zero] at hm
      split_ifs <;> simp [hm]
    | succ j =>
      simp only [List.getElem?_cons_succ] at h
      have hrec : ∀ ne, m ∈ (elems cfg p u total (i + 1) ne vs).1 := fun ne =>
        ih (i + 1) ne j h (by rwa [show i + 1 + j = i + (j + 1) by omega])
      rw [elems_cons]
      split_ifs with h1 h2 h3
      · exact hrec _
      · omega
      · simp [hrec]
      · simp [hrec]

theorem elems_verdict {p : List Nat} {u : Ty} {total : Nat} {v : Ini E} (hs : ¬ Skips cfg total u v) :
    ∀ (vs : List (Ini E)) (i ne j : Nat), vs[j]? = some v → (check cfg (p ++ [i + j]) u v).1 ≠ [] →
      (elems cfg p u total i ne vs).1 ≠ [] := by
  intro vs
  induction vs with
  | nil => intro i ne j h; simp at h
  | cons w vs ih =>
    intro i ne j h hm
    cases j with
    | zero =>
      simp only [List.getElem?_cons_zero, Option.some.injEq] at h
      subst h
      unfold Skips at hs
      rw [elems_cons, if_neg hs]
      simp only [Nat.add_zero] at hm
      split_ifs <;> simp [hm]
    | succ j =>
      simp only [List.getElem?_cons_succ] at h
      have hrec : ∀ ne, (elems cfg p u total (i + 1) ne vs).1 ≠ [] := fun ne =>
        ih (i + 1) ne j h (by rwa [show i + 1 + j = i + (j + 1) by omega])
      rw [elems_cons]
      split_ifs with h1 h2 h3
      · exact hrec _
      · simp
      · simp [hrec]
      · simp [hrec]

theorem mem_fields {p : List Nat} {m : Msg} : ∀ (fs : List Ty) (vs : List (Ini E)) (i : Nat),
    m ∈ (fields cfg p i fs vs).1 ↔
      ∃ j f v, fs[j]? = some f ∧ vs[j]? = some v ∧ m ∈ (check cfg (p ++ [i + j]) f v).1 := by
  intro fs
  induction fs with
  | nil => intro vs i; simp [fields]
  | cons f fs ih =>
    intro vs i
    cases vs with
    | nil => simp [fields]
    | cons v vs =>
      rw [fields]
      simp only [List.mem_append, ih]
      constructor
      · rintro (h | ⟨j, g, w, h1, h2, h3⟩)
        · exact ⟨0, f, v, rfl, rfl, by simpa using h⟩
        · exact ⟨j + 1, g, w, by simpa using h1, by simpa using h2, by rwa [show i + (j + 1) = i + 1 + j by omega]⟩
      · rintro ⟨j, g, w, h1, h2, h3⟩
        cases j with
        | zero =>
          simp only [List.getElem?_cons_zero, Option.some.injEq] at h1 h2
          subst h1 h2
          exact Or.inl (by simpa using h3)
        | succ j =>
          exact Or.inr ⟨j, g, w, by simpa using h1, by simpa using h2, by rwa [show i + 1 + j = i + (j + 1) by omega]⟩

theorem whole_skips {u : Ty} {vs : List (Ini E)} {i : Nat} {v : Ini E} (hv : vs[i]? = some v) :
    Skips cfg vs.length u v ↔ Whole cfg u vs := by
  unfold Skips Whole
  rw [isChar_iff]
  constructor
  · rintro ⟨h1, h2, h3⟩
    refine ⟨h3, ?_⟩
    obtain ⟨a, rfl⟩ := List.length_eq_one_iff.1 h1
    have : v = a := by
      cases i with
      | zero => simpa using hv.symm
      | succ i => simp at hv
    subst this
    cases v <;> simp [isStringIni] at h2
    exact ⟨_, rfl, h2⟩
  · rintro ⟨h1, e, rfl, he⟩
    have : v = .expr e := by
      cases i with
      | zero => simpa using hv.symm
      | succ i => simp at hv
    subst this
    exact ⟨rfl, he, h1⟩

end Splint.Init
