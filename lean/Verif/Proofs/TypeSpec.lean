import Verif.Spec.TypeSpec
/-! Proofs about type specifiers. -/
namespace Splint.TypeSpec
open Spec

theorem base_mem (ws : List Word) : Word.isBase (base ws) = true := by
  unfold base
  split
  · split
    · assumption
    · rfl
  · rfl

/-- one more word -/
theorem step_silent {b w : Word} {u s l : Nat} (hb : Word.isBase b = true)
    (h : Silent b (u + if w = .unsigned then 1 else 0) (s + if w = .short then 1 else 0)
      (l + if w = .long then 1 else 0)) :
    combine false (typeFor b u s l) w.ty
      = (typeFor b (u + if w = .unsigned then 1 else 0) (s + if w = .short then 1 else 0)
          (l + if w = .long then 1 else 0), []) := by
  rcases u with _ | _ | u <;> rcases s with _ | _ | s <;> rcases l with _ | _ | l <;> cases w <;> cases b <;>
    first
      | exact absurd hb (by decide)
      | (simp [Silent] at h; done)
      | (simp [typeFor, combine, Word.ty])

theorem step_loud {b w : Word} {u s l : Nat} (hb : Word.isBase b = true) (h0 : Silent b u s l)
    (h : ¬ Silent b (u + if w = .unsigned then 1 else 0) (s + if w = .short then 1 else 0)
      (l + if w = .long then 1 else 0)) :
    (combine false (typeFor b u s l) w.ty).2 ≠ [] := by
  rcases u with _ | _ | u <;> rcases s with _ | _ | s <;> rcases l with _ | _ | l <;> cases w <;> cases b <;>
    first
      | exact absurd hb (by decide)
      | (simp [Silent] at h0; done)
      | (simp [Silent] at h; done)
      | (simp [typeFor, combine, Word.ty, syn])

theorem Silent_mono {b : Word} {u s l u' s' l' : Nat} (h : Silent b u' s' l') (hu : u ≤ u') (hs : s ≤ s')
    (hl : l ≤ l') : Silent b u s l := by
  cases b <;> simp only [Silent] at h ⊢ <;> omega

theorem count_cons' (a w : Word) (ws : List Word) :
    (w :: ws).count a = ws.count a + if w = a then 1 else 0 := by
  rw [List.count_cons]
  simp

/-- What the code does with any list of words. -/
theorem spec_eq {ws : List Word} (hne : ws ≠ []) :
    (silent ws → spec false ws = (typeOf ws, [])) ∧ (¬ silent ws → (spec false ws).2 ≠ []) := by
  induction ws with
  | nil => exact absurd rfl hne
  | cons w ws ih =>
    by_cases hw : ws = []
    · subst hw
      cases w <;> simp [silent, Silent, base, spec, combine, Word.ty, typeOf, typeFor, Word.isBase]
    · obtain ⟨ih1, ih2⟩ := ih hw
      have hbase : base (w :: ws) = base ws := by
        unfold base
        obtain ⟨a, ws, rfl⟩ := List.exists_cons_of_ne_nil hw
        rw [List.getLast?_cons_cons]
      have hs : silent (w :: ws) ↔ Silent (base ws)
          (ws.count .unsigned + if w = .unsigned then 1 else 0)
          (ws.count .short + if w = .short then 1 else 0)
          (ws.count .long + if w = .long then 1 else 0) := by
        simp only [silent, hbase, count_cons']
      have ht : typeOf (w :: ws) = typeFor (base ws)
          (ws.count .unsigned + if w = .unsigned then 1 else 0)
          (ws.count .short + if w = .short then 1 else 0)
          (ws.count .long + if w = .long then 1 else 0) := by
        simp only [typeOf, hbase, count_cons']
      rw [hs, ht]
      by_cases h0 : silent ws
      · have e := ih1 h0
        refine ⟨fun h => ?_, fun h => ?_⟩
        · have := step_silent (base_mem ws) h
          simp only [spec, e, typeOf, this]
          rfl
        · have := step_loud (base_mem ws) h0 h
          simp only [spec, e, typeOf]
          simpa using this
      · refine ⟨fun h => absurd ?_ h0, fun _ => ?_⟩
        · exact Silent_mono h (by omega) (by omega) (by omega)
        · simp only [spec]
          intro h
          exact ih2 h0 (List.append_eq_nil_iff.1 h).1

/-! The flag -/

theorem combine_ignore (d m : Ty) :
    combine true d m = ((combine false d m).1, (combine false d m).2.filter (· = .dup)) := by
  cases m <;> cases d <;> rfl

theorem spec_ignore (ws : List Word) :
    spec true ws = ((spec false ws).1, (spec false ws).2.filter (· = .dup)) := by
  induction ws with
  | nil => rfl
  | cons w ws ih =>
    simp only [spec, ih, combine_ignore, List.filter_append]

end Splint.TypeSpec
