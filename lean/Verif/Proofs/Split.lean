import Verif.Tactics
import Verif.Model.Split
import Verif.Spec.Split
namespace Splint
open Spec
namespace Split

theorem lastBelow_spec {s : Bytes} {c : UInt8} {n k : Nat} (h : lastBelow s c n = some k) :
    k < n ∧ s[k]? = some c := by
  induction n with
  | zero => simp [lastBelow] at h
  | succ n ih =>
    simp only [lastBelow] at h
    split at h
    · cases h; exact ⟨by omega, by assumption⟩
    · have := ih h; exact ⟨by omega, this.2⟩

theorem maxcp_spec {a b : Option Nat} {k : Nat} (h : maxcp a b = some k) : a = some k ∨ b = some k := by
  rcases a with _ | a <;> rcases b with _ | b <;> simp_all [maxcp]
  omega

theorem searchBack_le (s : Bytes) (t i : Nat) : searchBack s t i ≤ t := by
  induction t generalizing i with
  | zero => simp [searchBack]
  | succ t ih =>
    simp only [searchBack]
    split
    · have := ih (i + 1); omega
    · omega

theorem searchBack_ge (s : Bytes) (t i : Nat) (h4 : 4 ≤ t) : 4 ≤ searchBack s t i := by
  induction t generalizing i with
  | zero => omega
  | succ t ih =>
    simp only [searchBack]
    split
    · rename_i h
      simp at h
      exact ih _ (by omega)
    · omega

theorem searchBack_ge' (s : Bytes) (t i : Nat) (hi : i ≤ maxSearch) :
    t ≤ searchBack s t i + (maxSearch - i) := by
  induction t generalizing i with
  | zero => simp
  | succ t ih =>
    simp only [searchBack]
    split
    · rename_i h
      simp at h
      have := ih (i + 1) (by omega)
      omega
    · omega

/-- Where a long line is cut. -/
inductive Cut (s : Bytes) (maxline : Nat) : Bytes → Option Bytes → Prop
  | punct (k : Nat) : k + 1 < maxline → s[k + 1]? = some 32 → s[k]? ≠ some 32 →
      Cut s maxline (s.take (k + 1)) (some (s.drop (k + 2)))
  | hard : Cut s maxline (s.take maxline) (if s.drop maxline = [] then none else some (s.drop maxline))
  | blank (t : Nat) : t < maxline → 4 ≤ t → maxline ≤ t + 21 → (s[t]? = some 32 ∨ s[t]? = some 9) →
      Cut s maxline (s.take t) (if s.drop (t + 1) = [] then none else some (s.drop (t + 1)))

theorem splitLong_cut (s : Bytes) (maxline : Nat) (hm : minLineLen ≤ maxline) :
    Cut s maxline (splitLong s maxline).1 (splitLong s maxline).2 := by
  unfold splitLong
  dsimp only
  split
  · rename_i k hk
    split at hk
    · rename_i k' hk'
      split at hk
      · rename_i hc
        cases hk
        simp at hc
        rcases maxcp_spec hk' with h | h
        all_goals
          have := lastBelow_spec h
          exact Cut.punct k (by omega) hc.1.1.1.2 (by rw [this.2]; decide)
      · cases hk
    · cases hk
  · split
    · rename_i k hk
      split at hk
      · rename_i k' hk'
        split at hk
        · rename_i hc
          cases hk
          simp at hc
          have := lastBelow_spec hk'
          exact Cut.punct k (by omega) hc.1.1.2 (by rw [this.2]; decide)
        · cases hk
      · cases hk
    · split
      · exact Cut.hard
      · rename_i hb
        have h1 := searchBack_le s (maxline - 1) 0
        have h2 := searchBack_ge s (maxline - 1) 0 (by simp [minLineLen] at hm; omega)
        have h3 := searchBack_ge' s (maxline - 1) 0 (by simp)
        simp only [maxSearch] at h3
        simp [minLineLen] at hm
        refine Cut.blank _ (by omega) h2 (by omega) ?_
        simp [Split.blank] at hb; tauto

/-- The effective line length. -/
def effLen (maxline : Int) : Nat := (max maxline minLineLen).toNat

theorem effLen_ge (maxline : Int) : 20 ≤ effLen maxline := by
  simp only [effLen, minLineLen]; omega

/-- Outcome of one split. -/
def Good (s0 : Bytes) (maxline : Int) (indent : Nat) (r : Bytes × Option Bytes × Nat) : Prop :=
  r.1.length ≤ effLen maxline ∧
  ∃ sep, Separator sep ∧
    List.replicate indent 32 ++ s0 = r.1 ++ sep ++ r.2.1.getD [] ∧
    r.2.2 = (if r.2.1.isSome then indentAfter indent sep else indent) ∧
    (indent ≤ max 4 (effLen maxline - 21) → ∀ t, r.2.1 = some t → t.length < s0.length)

theorem good_cut {s0 : Bytes} {maxline : Int} {indent : Nat} {p : Bytes} {r : Option Bytes}
    (hl : effLen maxline ≤ (List.replicate indent 32 ++ s0).length)
    (h : Cut (List.replicate indent 32 ++ s0) (effLen maxline) p r) :
    Good s0 maxline indent (p, r, indent) := by
  have h20 := effLen_ge maxline
  set s := List.replicate indent 32 ++ s0 with hs
  have hsl : s.length = indent + s0.length := by simp [hs]
  have split1 : ∀ (k : Nat) (c : UInt8), s[k]? = some c → s = s.take k ++ [c] ++ s.drop (k + 1) := by
    intro k c hk
    obtain ⟨h1, h2⟩ := List.getElem?_eq_some_iff.1 hk
    rw [List.append_assoc, List.singleton_append, ← h2, ← List.drop_eq_getElem_cons h1, List.take_append_drop]
  cases h with
  | punct k h1 h2 h3 =>
    refine ⟨by simp; omega, [32], by simp [Separator], ?_, by simp [indentAfter], ?_⟩
    · exact split1 (k + 1) 32 h2
    · intro _ t ht
      simp only [Option.some.injEq] at ht
      subst ht
      have hk : k < s.length := by
        have := (List.getElem?_eq_some_iff.1 h2).1; omega
      have : indent ≤ k := by
        by_contra hc
        apply h3
        rw [hs, List.getElem?_append_left (by simp; omega)]
        simp [List.getElem?_replicate]; omega
      simp [hsl]; omega
  | hard =>
    refine ⟨by simp, [], by simp [Separator], ?_, ?_, ?_⟩
    · dsimp only
      split
      · rename_i hd
        have := List.take_append_drop (effLen maxline) s
        rw [hd] at this; simpa using this.symm
      · simp [hs]
    · simp [indentAfter]
    · intro hi t ht
      dsimp only at ht
      split at ht
      · cases ht
      · simp only [Option.some.injEq] at ht
        subst ht
        simp [hsl]; omega
  | blank t h1 h2 h3 h4 =>
    have key : ∀ c : UInt8, Separator [c] → indentAfter indent [c] = indent → s[t]? = some c →
        Good s0 maxline indent
          (s.take t, (if s.drop (t + 1) = [] then none else some (s.drop (t + 1))), indent) := by
      intro c hc hia hsc
      have hsp := split1 t c hsc
      refine ⟨by simp; omega, [c], hc, ?_, ?_, ?_⟩
      · dsimp only
        split
        · rename_i hd
          rw [hd] at hsp; simpa using hsp
        · simpa using hsp
      · simp [hia]
      · intro hi t' ht'
        dsimp only at ht'
        split at ht'
        · cases ht'
        · simp only [Option.some.injEq] at ht'
          subst ht'
          have := (List.getElem?_eq_some_iff.1 hsc).1
          simp [hsl]; omega
    rcases h4 with h4 | h4
    · exact key 32 (by simp [Separator]) rfl h4
    · exact key 9 (by simp [Separator]) rfl h4

theorem split_good (s0 : Bytes) (maxline : Int) (indent : Nat) :
    Good s0 maxline indent (split s0 maxline indent) := by
  have hlong : ¬ (List.replicate indent 32 ++ s0).length < effLen maxline →
      Good s0 maxline indent
        ((splitLong (List.replicate indent 32 ++ s0) (effLen maxline)).1,
         (splitLong (List.replicate indent 32 ++ s0) (effLen maxline)).2, indent) := by
    intro h
    exact good_cut (by omega) (splitLong_cut _ _ (effLen_ge maxline))
  have hshort : (List.replicate indent 32 ++ s0).length < effLen maxline →
      Good s0 maxline indent (List.replicate indent 32 ++ s0, none, indent) := by
    intro h
    exact ⟨Nat.le_of_lt h, [], by simp [Separator], by simp, by simp, by simp⟩
  unfold split
  dsimp only
  rw [show (max maxline (minLineLen : Int)).toNat = effLen maxline from rfl]
  split
  · rename_i n hn
    split
    · rename_i hlt
      have hnn := List.findIdx?_eq_some_iff_getElem.1 hn
      obtain ⟨hnl, hn10, _⟩ := hnn
      have hn10' : (List.replicate indent 32 ++ s0)[n]? = some (10 : UInt8) := by
        rw [List.getElem?_eq_getElem hnl]; simp at hn10; simp [hn10]
      have hin : indent ≤ n := by
        by_contra hc
        rw [List.getElem?_append_left (by simp; omega)] at hn10'
        simp [List.getElem?_replicate] at hn10'
      set s := List.replicate indent 32 ++ s0 with hs
      have hsl : s.length = indent + s0.length := by simp [hs]
      have hsp : s = s.take n ++ [10] ++ s.drop (n + 1) := by
        rw [List.append_assoc, List.singleton_append]
        obtain ⟨h1, h2⟩ := List.getElem?_eq_some_iff.1 hn10'
        rw [← h2, ← List.drop_eq_getElem_cons h1, List.take_append_drop]
      split
      · rename_i hd
        refine ⟨by simp; omega, [10], by simp [Separator], ?_, by simp, by simp⟩
        rw [hd] at hsp; simpa using hsp
      · rename_i c t hd
        have hdl : (s.drop (n + 1)).length = t.length + 1 := by rw [hd]; simp
        simp at hdl
        split
        · rename_i hc
          simp at hc
          refine ⟨by simp; omega, [10, c], ?_, ?_, by simp [indentAfter], ?_⟩
          · exact Or.inr (Or.inr (Or.inr (Or.inr ⟨c, hc.1, hc.2, rfl⟩)))
          · rw [hd] at hsp; simpa using hsp
          · intro _ t' ht'; simp at ht'; subst ht'; omega
        · refine ⟨by simp; omega, [10], by simp [Separator], ?_, by simp [indentAfter], ?_⟩
          · rw [hd] at hsp; simpa using hsp
          · intro _ t' ht'; simp at ht'; subst ht'; simp; omega
    · split
      · exact hshort (by assumption)
      · exact hlong (by assumption)
  · split
    · exact hshort (by assumption)
    · exact hlong (by assumption)

theorem loop_layout (pre : Nat) (maxline : Int) (fuel : Nat) (s : Bytes) (indent : Nat)
    (lines : List Bytes) (h : loop pre maxline fuel s indent = some lines) :
    ∃ ps, lines = ps.map (List.replicate pre 32 ++ ·) ∧ Layout indent s ps ∧
      ∀ p ∈ ps, p.length ≤ effLen maxline := by
  induction fuel generalizing s indent lines with
  | zero => simp [loop] at h
  | succ fuel ih =>
    simp only [loop] at h
    have hg := split_good s maxline indent
    split at h
    · rename_i p i heq
      rw [heq] at hg
      obtain ⟨h1, sep, h2, h3, _⟩ := hg
      cases h
      exact ⟨[p], by simp, Layout.last _ _ _ sep h2 (by simpa using h3), by simpa using h1⟩
    · rename_i p r i heq
      rw [heq] at hg
      obtain ⟨h1, sep, h2, h3, h4, _⟩ := hg
      rw [Option.map_eq_some_iff] at h
      obtain ⟨ls, hls, rfl⟩ := h
      obtain ⟨ps, rfl, hl, hw⟩ := ih r i ls hls
      refine ⟨p :: ps, by simp, ?_, by simpa using ⟨h1, hw⟩⟩
      simp only [Option.isSome_some, if_true] at h4
      subst h4
      exact Layout.more _ _ _ sep r _ h2 (by simpa using h3) hl

theorem marks_append (a b : Bytes) : marks (a ++ b) = marks a + marks b := by simp [marks]

theorem marks_spaces (n : Nat) : marks (List.replicate n 32) = 0 := by
  induction n with
  | zero => rfl
  | succ n ih => simp only [List.replicate_succ, marks, List.map_cons, List.sum_cons] at ih ⊢; rw [ih]; rfl

theorem marks_cons (c : UInt8) (s : Bytes) :
    marks (c :: s) = (if 1 ≤ c && c ≤ 7 then c.toNat else 0) + marks s := by simp [marks]

theorem indentAfter_le (i : Nat) (sep : Bytes) (h : Separator sep) : indentAfter i sep ≤ i + marks sep := by
  rcases h with rfl | rfl | rfl | rfl | ⟨k, h1, h2, rfl⟩ <;> simp [indentAfter]
  rw [marks_cons, marks_cons]
  simp [h1, h2]

theorem loop_terminates (pre : Nat) (maxline : Int) (fuel : Nat) (s : Bytes) (indent : Nat)
    (hi : indent + marks s ≤ max 4 (effLen maxline - 21)) (hf : s.length < fuel) :
    ∃ lines, loop pre maxline fuel s indent = some lines := by
  induction fuel generalizing s indent with
  | zero => omega
  | succ fuel ih =>
    simp only [loop]
    have hg := split_good s maxline indent
    split
    · exact ⟨_, rfl⟩
    · rename_i p r i heq
      rw [heq] at hg
      obtain ⟨h1, sep, h2, h3, h4, h5⟩ := hg
      have hlt := h5 (by omega) r rfl
      have hm := congrArg marks h3
      simp only [Option.getD_some, marks_append, marks_spaces] at hm
      simp only [Option.isSome_some, if_true] at h4
      have := indentAfter_le indent sep h2
      obtain ⟨ls, hls⟩ := ih r i (by omega) (by omega)
      exact ⟨_, by rw [hls]; rfl⟩

theorem ink_append (a b : Bytes) : ink (a ++ b) = ink a ++ ink b := by simp [ink]
theorem ink_spaces (n : Nat) : ink (List.replicate n 32) = [] := by simp [ink]
theorem ink_sep (sep : Bytes) (h : Separator sep) : ink sep = [] := by
  rcases h with rfl | rfl | rfl | rfl | ⟨k, h1, h2, rfl⟩ <;> try rfl
  simp [ink, h1, h2]

theorem layout_ink {i : Nat} {s : Bytes} {ps : List Bytes} (h : Layout i s ps) :
    ink ps.flatten = ink s := by
  induction h with
  | last i s p sep hs he =>
    have := congrArg ink he
    simp only [ink_append, ink_spaces, ink_sep sep hs] at this
    simpa using this.symm
  | more i s p sep r ps hs he _ ih =>
    have := congrArg ink he
    simp only [ink_append, ink_spaces, ink_sep sep hs] at this
    simp [ink_append, ih]
    simpa using this.symm

end Split
end Splint
