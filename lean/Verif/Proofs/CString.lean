import Verif.Tactics
import Verif.Model.CString
namespace Splint

theorem strcmp_self (s : Bytes) : strcmp s s = 0 := by
  induction s with
  | nil => rfl
  | cons a as ih => simp [strcmp, ih, UInt8.lt_irrefl]

theorem strcmp_eq_zero (s t : Bytes) : strcmp s t = 0 ↔ s = t := by
  constructor
  · intro h
    induction s generalizing t with
    | nil => cases t <;> simp_all [strcmp]
    | cons a as ih =>
      cases t with
      | nil => simp [strcmp] at h
      | cons b bs =>
        simp only [strcmp] at h
        split at h
        · simp at h
        · split at h
          · simp at h
          · rename_i h1 h2
            have hab : a = b := by
              have := UInt8.le_antisymm (UInt8.not_lt.mp h2) (UInt8.not_lt.mp h1)
              exact this
            rw [hab, ih bs h]
  · rintro rfl; exact strcmp_self s

theorem strcmp_antisymm (s t : Bytes) : strcmp t s = - strcmp s t := by
  induction s generalizing t with
  | nil => cases t <;> simp [strcmp]
  | cons a as ih =>
    cases t with
    | nil => simp [strcmp]
    | cons b bs =>
      simp only [strcmp]
      by_cases h1 : a < b
      · have h2 : ¬ b < a := UInt8.lt_asymm h1
        simp [h1, h2]
      · by_cases h2 : b < a
        · simp [h1, h2]
        · simp [h1, h2, ih]

theorem strcmp_range (s t : Bytes) : strcmp s t = -1 ∨ strcmp s t = 0 ∨ strcmp s t = 1 := by
  induction s generalizing t with
  | nil => cases t <;> simp [strcmp]
  | cons a as ih =>
    cases t with
    | nil => simp [strcmp]
    | cons b bs =>
      simp only [strcmp]
      split
      · simp
      · split
        · simp
        · exact ih bs

theorem strcmp_trans {s t u : Bytes} (h1 : strcmp s t < 0) (h2 : strcmp t u < 0) :
    strcmp s u < 0 := by
  induction s generalizing t u with
  | nil =>
    cases t <;> cases u <;> simp_all [strcmp]
  | cons a as ih =>
    cases t with
    | nil => simp [strcmp] at h1
    | cons b bs =>
      cases u with
      | nil => simp [strcmp] at h2
      | cons c cs =>
        simp only [strcmp] at *
        by_cases hab : a < b
        · by_cases hbc : b < c
          · simp [UInt8.lt_trans hab hbc]
          · by_cases hcb : c < b
            · simp [hbc, hcb] at h2
            · have : b = c := UInt8.le_antisymm (UInt8.not_lt.mp hcb) (UInt8.not_lt.mp hbc)
              subst this; simp [hab]
        · by_cases hba : b < a
          · simp [hab, hba] at h1
          · have hE : a = b := UInt8.le_antisymm (UInt8.not_lt.mp hba) (UInt8.not_lt.mp hab)
            subst hE
            simp [UInt8.lt_irrefl] at h1
            by_cases hbc : a < c
            · simp [hbc]
            · by_cases hcb : c < a
              · simp [hbc, hcb] at h2
              · simp [hbc, hcb] at h2 ⊢
                exact ih h1 h2

end Splint
