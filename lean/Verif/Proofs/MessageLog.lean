import Verif.Tactics
import Verif.Spec.MessageLog
import Verif.Proofs.CString
import Verif.Props.FileLoc
namespace Splint
open Spec
namespace MessageLog

/-- order on entries by place then text -/
def ELt (a b : MsgEntry) : Prop :=
  Before (place a.loc) (place b.loc) ∨ (place a.loc = place b.loc ∧ strcmp a.msg b.msg < 0)

theorem Before.trans {p q r : Option (Int × Int × Int)} (h1 : Before p q) (h2 : Before q r) :
    Before p r := by
  rcases p with _ | ⟨a, b, c⟩ <;> rcases q with _ | ⟨a', b', c'⟩ <;>
    rcases r with _ | ⟨a'', b'', c''⟩ <;> simp_all [Before]
  omega

theorem Before.irrefl (p : Option (Int × Int × Int)) : ¬ Before p p := by
  rcases p with _ | ⟨a, b, c⟩ <;> simp [Before]

theorem Before.total (p q : Option (Int × Int × Int)) : Before p q ∨ p = q ∨ Before q p := by
  rcases p with _ | ⟨a, b, c⟩ <;> rcases q with _ | ⟨a', b', c'⟩ <;> simp [Before]
  omega

theorem ELt.trans {a b c : MsgEntry} (h1 : ELt a b) (h2 : ELt b c) : ELt a c := by
  rcases h1 with h1 | ⟨h1, h1'⟩ <;> rcases h2 with h2 | ⟨h2, h2'⟩
  · exact Or.inl (Before.trans h1 h2)
  · exact Or.inl (h2 ▸ h1)
  · exact Or.inl (h1 ▸ h2)
  · exact Or.inr ⟨h1.trans h2, strcmp_trans h1' h2'⟩

theorem ELt.irrefl (a : MsgEntry) : ¬ ELt a a := by
  rintro (h | ⟨_, h⟩)
  · exact Before.irrefl _ h
  · rw [strcmp_self] at h; omega

theorem ELt.total (a b : MsgEntry) :
    ELt a b ∨ (place a.loc = place b.loc ∧ a.msg = b.msg) ∨ ELt b a := by
  rcases Before.total (place a.loc) (place b.loc) with h | h | h
  · exact Or.inl (Or.inl h)
  · rcases strcmp_range a.msg b.msg with h' | h' | h'
    · exact Or.inl (Or.inr ⟨h, by omega⟩)
    · exact Or.inr (Or.inl ⟨h, (strcmp_eq_zero _ _).1 h'⟩)
    · refine Or.inr (Or.inr (Or.inr ⟨h.symm, ?_⟩))
      rw [strcmp_antisymm]; omega
  · exact Or.inr (Or.inr (Or.inl h))

theorem loc_equal_iff {f g : FileLoc} (hf : Ordinary f) (hg : Ordinary g) : f.equal g = true ↔ place f = place g := by
  rw [C01_equal_iff]
  constructor
  · rintro (h | ⟨r, s, a, _, _, _, _, h, _⟩)
    · exact absurd h.1 hf.1
    · exact h
  · intro h
    obtain ⟨r, rfl⟩ := Option.ne_none_iff_exists'.1 hf.1
    obtain ⟨s, rfl⟩ := Option.ne_none_iff_exists'.1 hg.1
    refine .inr ⟨r, s, r.fid, rfl, rfl, hf.2.2 r rfl, ?_, h, hf.2.1, hg.2.1⟩
    have h2 := hg.2.2 s rfl
    simp only [place, Option.map_some, hf.2.2 r rfl, h2, Option.getD_some, Option.some.injEq, Prod.mk.injEq] at h
    rw [h2, h.1]

theorem lessthan_iff {a b : MsgEntry} (ha : Ordinary a.loc) (hb : Ordinary b.loc) :
    a.lessthan b = true ↔ ELt a b := by
  simp only [MsgEntry.lessthan, Bool.or_eq_true, Bool.and_eq_true, C01_lessthan_partial _ _ ha.2.2 hb.2.2, loc_equal_iff ha hb,
    decide_eq_true_eq, ELt]
  have := ha.1; have := hb.1
  simp_all

theorem equal_iff {a b : MsgEntry} (ha : Ordinary a.loc) (hb : Ordinary b.loc) :
    a.equal b = true ↔ (place a.loc = place b.loc ∧ a.msg = b.msg) := by
  simp only [MsgEntry.equal, Bool.and_eq_true, loc_equal_iff ha hb, beq_iff_eq, strcmp_eq_zero]

theorem equal_place {a b : MsgEntry} (h : a.equal b = true) : place a.loc = place b.loc ∧ a.msg = b.msg := by
  simp only [MsgEntry.equal, Bool.and_eq_true, C01_equal_iff, beq_iff_eq, strcmp_eq_zero] at h
  refine ⟨?_, h.2⟩
  rcases h.1 with ⟨h1, h2⟩ | ⟨r, s, x, _, _, _, _, h, _⟩
  · rw [h1, h2]
  · exact h

/-- the loop answers the largest `k ≤ n` whose predecessor element is less than `m` -/
theorem indexLoop_spec (s : List MsgEntry) (m : MsgEntry) (n : Nat) (hn : n ≤ s.length) :
    indexLoop s m n ≤ n ∧
    (∀ i e, indexLoop s m n ≤ i → i < n → s[i]? = some e → e.lessthan m = false) ∧
    (∀ i, indexLoop s m n = i + 1 → ∃ e, s[i]? = some e ∧ e.lessthan m = true) := by
  induction n with
  | zero => simp [indexLoop]
  | succ n ih =>
    have hlt : n < s.length := by omega
    have hg : s[n]? = some s[n] := by simp [hlt]
    have ih := ih (by omega)
    simp only [indexLoop, hg]
    by_cases h : (s[n].lessthan m) = true
    · simp only [h, if_true]
      refine ⟨le_refl _, ?_, ?_⟩
      · intro i e h1 h2; omega
      · intro i hi
        have : i = n := by omega
        subst this; exact ⟨s[i], hg, h⟩
    · simp only [h]
      refine ⟨by simp; omega, ?_, ?_⟩
      · intro i e h1 h2 h3
        by_cases hi : i = n
        · subst hi; rw [hg] at h3; injection h3 with h3; subst h3; simpa using h
        · exact ih.2.1 i e (by simpa using h1) (by omega) h3
      · intro i hi; exact ih.2.2 i (by simpa using hi)

theorem index1_spec (s : List MsgEntry) (m : MsgEntry) :
    index1 s m ≤ s.length ∧
    (∀ i e, index1 s m ≤ i → s[i]? = some e → e.lessthan m = false) ∧
    (∀ i, index1 s m = i + 1 → ∃ e, s[i]? = some e ∧ e.lessthan m = true) := by
  have h := indexLoop_spec s m s.length (le_refl _)
  refine ⟨h.1, ?_, h.2.2⟩
  intro i e h1 h2
  have : i < s.length := by
    rcases Nat.lt_or_ge i s.length with h' | h'
    · exact h'
    · rw [List.getElem?_eq_none h'] at h2; cases h2
  exact h.2.1 i e h1 this h2

/-- strictly sorted, ordinary positions only -/
def Inv (s : List MsgEntry) : Prop :=
  s.Pairwise ELt ∧ ∀ e ∈ s, Ordinary e.loc

theorem split_of_inv {s : List MsgEntry} (hs : Inv s) {m : MsgEntry} (hm : Ordinary m.loc) :
    (∀ e ∈ s.take (index1 s m), ELt e m) ∧
    (∀ e ∈ s.drop (index1 s m), ¬ ELt e m) := by
  obtain ⟨h1, h2, h3⟩ := index1_spec s m
  constructor
  · intro e he
    rcases Nat.eq_zero_or_pos (index1 s m) with h0 | h0
    · simp [h0] at he
    · obtain ⟨k, hk⟩ : ∃ k, index1 s m = k + 1 := ⟨index1 s m - 1, by omega⟩
      obtain ⟨f, hf, hfm⟩ := h3 k hk
      have hkl : k < s.length := by omega
      have hfe : f = s[k] := by simpa [hkl, eq_comm] using hf
      have hfO : Ordinary f.loc := hs.2 f (hfe ▸ List.getElem_mem hkl)
      have hfm' : ELt f m := (lessthan_iff hfO hm).1 hfm
      rw [List.mem_take_iff_getElem] at he
      obtain ⟨i, hi, rfl⟩ := he
      by_cases hik : i = k
      · subst hik; rw [← hfe]; exact hfm'
      · have := (List.pairwise_iff_getElem.1 hs.1) i k (by omega) hkl (by omega)
        exact ELt.trans (hfe ▸ this) hfm'
  · intro e he
    rw [List.mem_drop_iff_getElem] at he
    obtain ⟨i, hi, rfl⟩ := he
    have := h2 (index1 s m + i) (s[index1 s m + i]) (by omega) (by simp)
    intro hc
    rw [(lessthan_iff (hs.2 _ (List.getElem_mem _)) hm).2 hc] at this
    cases this

theorem add_eq (s : List MsgEntry) (fl : FileLoc) (mess : Bytes) :
    add s fl mess =
      match s[index1 s ⟨fl, mess⟩]? with
      | some e =>
        if (⟨fl, mess⟩ : MsgEntry).equal e then (s, false)
        else (s.take (index1 s ⟨fl, mess⟩) ++ ⟨fl, mess⟩ :: s.drop (index1 s ⟨fl, mess⟩), true)
      | none =>
        (s.take (index1 s ⟨fl, mess⟩) ++ ⟨fl, mess⟩ :: s.drop (index1 s ⟨fl, mess⟩), true) := rfl

theorem add_inv {s : List MsgEntry} (hs : Inv s) {fl : FileLoc} {mess : Bytes}
    (hm : Ordinary fl) :
    Inv (add s fl mess).1 ∧
    ((add s fl mess).2 = false ↔ ∃ e ∈ s, place e.loc = place fl ∧ e.msg = mess) ∧
    (∀ e, e ∈ (add s fl mess).1 ↔ (e ∈ s ∨ ((add s fl mess).2 = true ∧ e = ⟨fl, mess⟩))) := by
  set m : MsgEntry := ⟨fl, mess⟩ with hmdef
  have hmO : Ordinary m.loc := hm
  obtain ⟨hA, hB⟩ := split_of_inv hs hmO
  have hsplit : s.take (index1 s m) ++ s.drop (index1 s m) = s := List.take_append_drop _ _
  have hpw : s.Pairwise ELt := hs.1
  have insInv : (∀ e ∈ s, ¬ (place e.loc = place fl ∧ e.msg = mess)) →
      Inv (s.take (index1 s m) ++ m :: s.drop (index1 s m)) := by
    intro hno
    constructor
    · rw [← hsplit, List.pairwise_append] at hpw
      rw [List.pairwise_append, List.pairwise_cons]
      refine ⟨hpw.1, ⟨?_, hpw.2.1⟩, ?_⟩
      · intro e he
        have hes : e ∈ s := List.mem_of_mem_drop he
        rcases ELt.total m e with h | h | h
        · exact h
        · exact absurd ⟨h.1.symm, h.2.symm⟩ (hno e hes)
        · exact absurd h (hB e he)
      · intro e he f hf
        rcases List.mem_cons.1 hf with rfl | hf
        · exact hA e he
        · exact hpw.2.2 e he f hf
    · intro e he
      rcases List.mem_append.1 he with he | he
      · exact hs.2 e (List.mem_of_mem_take he)
      · rcases List.mem_cons.1 he with rfl | he
        · exact hmO
        · exact hs.2 e (List.mem_of_mem_drop he)
  have insMem : ∀ e, e ∈ s.take (index1 s m) ++ m :: s.drop (index1 s m) ↔ (e ∈ s ∨ e = m) := by
    intro e
    conv_rhs => rw [← hsplit]
    simp only [List.mem_append, List.mem_cons]
    tauto
  by_cases hdup : ∃ e ∈ s, place e.loc = place fl ∧ e.msg = mess
  · -- the duplicate sits exactly at the insertion index
    obtain ⟨d, hd, hd1, hd2⟩ := hdup
    have hdnot : d ∉ s.take (index1 s m) := by
      intro h
      rcases hA d h with h | ⟨_, h⟩
      · rw [hd1] at h; exact Before.irrefl _ h
      · rw [hd2, strcmp_self] at h; omega
    have hdin : d ∈ s.drop (index1 s m) := by
      rw [← hsplit, List.mem_append] at hd
      exact hd.resolve_left hdnot
    have hlt : index1 s m < s.length := by
      rcases Nat.lt_or_ge (index1 s m) s.length with h | h
      · exact h
      · rw [List.drop_eq_nil_of_le h] at hdin; cases hdin
    have hget : s[index1 s m]? = some s[index1 s m] := by simp [hlt]
    have hfirst : s[index1 s m] = d ∨ ELt s[index1 s m] d := by
      rw [List.mem_drop_iff_getElem] at hdin
      obtain ⟨i, hi, rfl⟩ := hdin
      rcases Nat.eq_zero_or_pos i with h0 | h0
      · subst h0; left; simp
      · right; exact (List.pairwise_iff_getElem.1 hs.1) _ _ _ _ (by omega)
    have hnl : ¬ ELt s[index1 s m] m := by
      apply hB
      rw [List.mem_drop_iff_getElem]
      exact ⟨0, by omega, by simp⟩
    have hfd : s[index1 s m] = d := by
      rcases hfirst with h | h
      · exact h
      · exfalso; apply hnl
        rcases h with h | ⟨h, h'⟩
        · left; rw [hd1] at h; exact h
        · right; exact ⟨h.trans hd1, by rw [hd2] at h'; exact h'⟩
    have heq : m.equal s[index1 s m] = true := by
      rw [hfd, equal_iff hmO (hs.2 d hd)]
      exact ⟨hd1.symm, hd2.symm⟩
    have hadd : add s fl mess = (s, false) := by
      rw [add_eq, ← hmdef, hget]
      simp only [heq, if_true]
    rw [hadd]
    refine ⟨hs, ?_, ?_⟩
    · simp; exact ⟨d, hd, hd1, hd2⟩
    · simp
  · have hno : ∀ e ∈ s, ¬ (place e.loc = place fl ∧ e.msg = mess) := by
      intro e he h; exact hdup ⟨e, he, h⟩
    have hadd : add s fl mess = (s.take (index1 s m) ++ m :: s.drop (index1 s m), true) := by
      rw [add_eq, ← hmdef]
      split
      · rename_i e he
        rw [if_neg]
        intro heq
        obtain ⟨h1, h2⟩ := equal_place heq
        exact hno e (List.mem_of_getElem? he) ⟨h1.symm, h2.symm⟩
      · rfl
    rw [hadd]
    refine ⟨insInv hno, ?_, ?_⟩
    · simp; intro e he h1 h2; exact hno e he ⟨h1, h2⟩
    · intro e; rw [insMem]; simp

end MessageLog
end Splint
