import Verif.Model.FlagName
import Verif.Model.Flags
import Verif.Spec.FlagName
import Mathlib.Data.List.Infix
namespace Splint.Flag

/-! ### Replacing a word -/

theorem isPrefixOf_iff (o s : List Char) : o.isPrefixOf s = true ↔ ∃ v, s = o ++ v := by
  rw [List.isPrefixOf_iff_prefix]
  constructor
  · rintro ⟨v, rfl⟩; exact ⟨v, rfl⟩
  · rintro ⟨v, rfl⟩; exact ⟨v, rfl⟩

theorem replaceFirst_some {o n s s' : List Char} (h : replaceFirst o n s = some s') :
    ∃ u v, s = u ++ (o ++ v) ∧ s' = u ++ (n ++ v) := by
  induction s generalizing s' with
  | nil => simp [replaceFirst] at h
  | cons c cs ih =>
    rw [replaceFirst] at h
    split_ifs at h with hp
    · obtain ⟨v, hv⟩ := (isPrefixOf_iff _ _).1 hp
      cases h
      refine ⟨[], v, hv, ?_⟩
      rw [hv]; simp
    · obtain ⟨t, ht, rfl⟩ := Option.map_eq_some_iff.1 h
      obtain ⟨u, v, h1, h2⟩ := ih ht
      exact ⟨c :: u, v, by rw [h1]; rfl, by rw [h2]; rfl⟩

theorem replaceFirst_none {o n s : List Char} (ho : o ≠ []) :
    replaceFirst o n s = none ↔ ¬ o <:+: s := by
  induction s with
  | nil => simp [replaceFirst, ho]
  | cons c cs ih =>
    rw [replaceFirst]
    split_ifs with hp
    · simp only [reduceCtorEq, false_iff, not_not]
      exact (List.isPrefixOf_iff_prefix.1 hp).isInfix
    · rw [Option.map_eq_none_iff, ih, List.infix_cons_iff]
      rw [List.isPrefixOf_iff_prefix] at hp
      tauto

/-- A pair of a word and a shorter one, the word not overlapping itself. -/
structure Good (o n : List Char) : Prop where
  shorter : n.length < o.length
  unbordered : ∀ k, 0 < k → k < o.length → o.drop k ≠ o.take (o.length - k)

theorem Good.ne {o n : List Char} (h : Good o n) : o ≠ [] := by
  intro e
  have := h.shorter
  rw [e] at this
  simp at this

theorem rounds_enough {o n : List Char} (h : Good o n) :
    ∀ (a b : Nat) (s : List Char), s.length ≤ a → s.length ≤ b →
      replaceRounds o n a s = replaceRounds o n b s := by
  intro a
  induction a with
  | zero =>
    intro b s ha hb
    have : s = [] := List.length_eq_zero_iff.1 (by omega)
    subst this
    cases b <;> simp [replaceRounds, replaceFirst]
  | succ a ih =>
    intro b s ha hb
    cases b with
    | zero =>
      have : s = [] := List.length_eq_zero_iff.1 (by omega)
      subst this
      simp [replaceRounds, replaceFirst]
    | succ b =>
      simp only [replaceRounds]
      cases hr : replaceFirst o n s with
      | none => rfl
      | some s' =>
        obtain ⟨u, v, rfl, rfl⟩ := replaceFirst_some hr
        have := h.shorter
        simp only [List.length_append] at ha hb
        apply ih <;> simp only [List.length_append] <;> omega

theorem replaceAll_step {o n s s' : List Char} (h : Good o n) (hr : replaceFirst o n s = some s') :
    replaceAll o n s = replaceAll o n s' := by
  have hs := h.shorter
  obtain ⟨u, v, h1, h2⟩ := replaceFirst_some hr
  have hl : s'.length < s.length := by
    rw [h1, h2]; simp only [List.length_append]; omega
  unfold replaceAll
  obtain ⟨k, hk⟩ : ∃ k, s.length = k + 1 := ⟨s.length - 1, by omega⟩
  rw [hk]
  simp only [replaceRounds, hr]
  exact rounds_enough h _ _ _ (by omega) (by omega)

theorem replaceAll_same {o n s : List Char} (h : Good o n) (hr : ¬ o <:+: s) :
    replaceAll o n s = s := by
  have := (replaceFirst_none (n := n) h.ne).2 hr
  unfold replaceAll
  cases s.length <;> simp [replaceRounds, this]

theorem replaceAll_none {o n : List Char} (h : Good o n) (s : List Char) :
    ¬ o <:+: replaceAll o n s := by
  generalize hN : s.length = N
  induction N using Nat.strong_induction_on generalizing s with
  | _ N ih =>
    cases hr : replaceFirst o n s with
    | none =>
      have h1 := (replaceFirst_none h.ne).1 hr
      rw [replaceAll_same h h1]
      exact h1
    | some s' =>
      rw [replaceAll_step h hr]
      obtain ⟨u, v, h1, h2⟩ := replaceFirst_some hr
      have hs := h.shorter
      refine ih s'.length ?_ s' rfl
      rw [← hN, h1, h2]; simp only [List.length_append]; omega

/-- Two occurrences of a word that does not overlap itself are apart. -/
theorem apart {o n : List Char} (h : Good o n) {u v u1 v1 : List Char}
    (he : u ++ (o ++ v) = u1 ++ (o ++ v1)) (hl : u1.length < u.length) :
    ∃ m, u = u1 ++ (o ++ m) ∧ v1 = m ++ (o ++ v) := by
  rcases List.append_eq_append_iff.1 he with ⟨d, hd, hd2⟩ | ⟨d, hd, hd2⟩
  · rw [hd] at hl; simp at hl
  · -- u = u1 ++ d, o ++ v1 = d ++ (o ++ v)
    rw [hd] at hl
    have hdpos : 0 < d.length := by
      rw [List.length_append] at hl; omega
    rcases List.append_eq_append_iff.1 hd2 with ⟨m, hm, hm2⟩ | ⟨m, hm, hm2⟩
    · exact ⟨m, by rw [hd, hm], hm2⟩
    · -- o = d ++ m, o ++ v = m ++ v1
      by_cases hm0 : m = []
      · subst hm0
        simp only [List.append_nil, List.nil_append] at hm hm2
        exact ⟨[], by rw [hd, hm]; simp, by rw [← hm2]; rfl⟩
      · exfalso
        have hk : d.length < o.length := by
          rw [hm, List.length_append]
          have : 0 < m.length := List.length_pos_iff.2 hm0
          omega
        apply h.unbordered d.length hdpos hk
        have h1 : o.drop d.length = m := by
          conv_lhs => rw [hm]
          simp
        have h2 : o.take (o.length - d.length) = m := by
          have hml : o.length - d.length = m.length := by
            conv_lhs => rw [hm]
            simp
          have hle : m.length ≤ o.length := by rw [hm]; simp
          have := congrArg (List.take m.length) hm2
          rw [List.take_append_of_le_length hle, List.take_left] at this
          rw [hml]; exact this
        rw [h1, h2]

/-- Replacing any occurrence first gives the same result. -/
theorem replaceAll_any {o n : List Char} (h : Good o n) (u v : List Char) :
    replaceAll o n (u ++ (o ++ v)) = replaceAll o n (u ++ (n ++ v)) := by
  have hs := h.shorter
  generalize hN : (u ++ (o ++ v)).length = N
  induction N using Nat.strong_induction_on generalizing u v with
  | _ N ih =>
    have hin : o <:+: u ++ (o ++ v) := ⟨u, v, by simp⟩
    cases hr : replaceFirst o n (u ++ (o ++ v)) with
    | none => exact absurd hin ((replaceFirst_none h.ne).1 hr)
    | some s' =>
      rw [replaceAll_step h hr]
      obtain ⟨u1, v1, h1, rfl⟩ := replaceFirst_some hr
      simp only [List.length_append] at hN
      rcases Nat.lt_trichotomy u1.length u.length with hl | hl | hl
      · obtain ⟨m, rfl, rfl⟩ := apart h h1 hl
        have e1 := ih _ (by simp only [List.length_append] at hN ⊢; omega) (u1 ++ (n ++ m)) v rfl
        have e2 := ih _ (by simp only [List.length_append] at hN ⊢; omega) u1 (m ++ (n ++ v)) rfl
        simp only [List.append_assoc] at e1 e2 ⊢
        rw [e1, e2]
      · obtain ⟨rfl, h2⟩ := List.append_inj h1 hl.symm
        rw [List.append_cancel_left h2]
      · obtain ⟨m, rfl, rfl⟩ := apart h h1.symm hl
        have e1 := ih _ (by simp only [List.length_append] at hN ⊢; omega) (u ++ (n ++ m)) v1 rfl
        have e2 := ih _ (by simp only [List.length_append] at hN ⊢; omega) u (m ++ (n ++ v1)) rfl
        simp only [List.append_assoc] at e1 e2 ⊢
        rw [e1, e2]

theorem infix_split {o a b : List Char} {p : Char} (hp : p ∉ o) (h : o <:+: a ++ p :: b) :
    o <:+: a ∨ o <:+: b := by
  obtain ⟨x, y, hxy⟩ := h
  rw [List.append_assoc] at hxy
  rcases List.append_eq_append_iff.1 hxy with ⟨d, hd, hd2⟩ | ⟨d, hd, hd2⟩
  · -- a = x ++ d,  o ++ y = d ++ p :: b
    rcases List.append_eq_append_iff.1 hd2 with ⟨m, hm, hm2⟩ | ⟨m, hm, hm2⟩
    · left; exact ⟨x, m, by rw [hd, hm]; simp⟩
    · cases m with
      | nil => left; exact ⟨x, [], by rw [hd, hm]; simp⟩
      | cons c m =>
        exfalso
        simp only [List.cons_append, List.cons.injEq] at hm2
        apply hp
        rw [hm, hm2.1]
        simp
  · -- x = a ++ d, p :: b = d ++ (o ++ y)
    cases d with
    | nil =>
      simp only [List.nil_append] at hd2
      cases o with
      | nil => left; exact ⟨[], a, rfl⟩
      | cons c o =>
        exfalso
        simp only [List.cons_append, List.cons.injEq] at hd2
        exact hp (by simp [hd2.1])
    | cons c d =>
      simp only [List.cons_append, List.cons.injEq] at hd2
      right
      exact ⟨d, y, by rw [hd2.2]; simp⟩

theorem replaceAll_split {o n : List Char} (h : Good o n) {p : Char} (hp : p ∉ o)
    (a b : List Char) : replaceAll o n (a ++ p :: b) = replaceAll o n a ++ p :: replaceAll o n b := by
  have hs := h.shorter
  generalize hN : (a ++ p :: b).length = N
  induction N using Nat.strong_induction_on generalizing a b with
  | _ N ih =>
    by_cases ha : o <:+: a
    · obtain ⟨u, v, rfl⟩ := ha
      have e := ih _ (by simp only [List.length_append, List.length_cons] at hN ⊢; omega)
        (u ++ (n ++ v)) b rfl
      simp only [List.append_assoc] at e ⊢
      rw [replaceAll_any h u (v ++ p :: b), e, ← replaceAll_any h u v]
    · by_cases hb : o <:+: b
      · obtain ⟨u, v, rfl⟩ := hb
        have e := ih _ (by simp only [List.length_append, List.length_cons] at hN ⊢; omega)
          a (u ++ (n ++ v)) rfl
        simp only [List.append_assoc] at e ⊢
        have e1 := replaceAll_any h (a ++ p :: u) v
        simp only [List.append_assoc, List.cons_append] at e1
        rw [e1, e, replaceAll_any h u v]
      · rw [replaceAll_same h ha, replaceAll_same h hb, replaceAll_same h]
        intro hi
        exact (infix_split hp hi).elim ha hb

/-! ### The table of words -/

def goodB (o n : List Char) : Bool :=
  Nat.blt n.length o.length
  && (List.range o.length).all (fun k => k == 0 || o.drop k != o.take (o.length - k))

theorem good_of_goodB {o n : List Char} (h : goodB o n = true) : Good o n := by
  simp only [goodB, Bool.and_eq_true, List.all_eq_true, Bool.or_eq_true, beq_iff_eq,
    bne_iff_ne] at h
  refine ⟨by simpa [Nat.blt_eq] using h.1, fun k h0 hk => ?_⟩
  exact (h.2 k (List.mem_range.2 hk)).resolve_left (by omega)

theorem transforms_good : ∀ t ∈ transforms, Good t.1 t.2 := by
  have : transforms.all (fun t => goodB t.1 t.2) = true := by decide +kernel
  intro t ht
  exact good_of_goodB ((List.all_eq_true.1 this) t ht)

theorem transforms_bare : ∀ t ∈ transforms, ∀ c ∈ t.1, stripped c = false := by
  decide +kernel

theorem canonicalise_split {p : Char} (hp : stripped p = true) (a b : List Char) :
    canonicalise (a ++ p :: b) = canonicalise a ++ canonicalise b := by
  have key : ∀ ts : List (List Char × List Char), (∀ t ∈ ts, t ∈ transforms) → ∀ a b : List Char,
      ts.foldl (fun r t => replaceAll t.1 t.2 r) (a ++ p :: b)
        = ts.foldl (fun r t => replaceAll t.1 t.2 r) a
          ++ p :: ts.foldl (fun r t => replaceAll t.1 t.2 r) b := by
    intro ts
    induction ts with
    | nil => intros; rfl
    | cons t ts ih =>
      intro h a b
      have ht := h t (by simp)
      have hpo : p ∉ t.1 := by
        intro hm
        have := transforms_bare t ht p hm
        rw [hp] at this
        cases this
      rw [List.foldl_cons, List.foldl_cons, List.foldl_cons,
        replaceAll_split (transforms_good t ht) hpo]
      exact ih (fun x hx => h x (by simp [hx])) _ _
  unfold canonicalise
  rw [key transforms (fun _ h => h), List.filter_append, List.filter_cons]
  simp [hp]

theorem foldl_same : ∀ (ts : List (List Char × List Char)), (∀ t ∈ ts, t ∈ transforms) →
    ∀ s : List Char, (∀ t ∈ ts, ¬ t.1 <:+: s) →
      ts.foldl (fun r t => replaceAll t.1 t.2 r) s = s := by
  intro ts
  induction ts with
  | nil => intros; rfl
  | cons t ts ih =>
    intro h s hs
    rw [List.foldl_cons, replaceAll_same (transforms_good t (h t (by simp))) (hs t (by simp))]
    exact ih (fun x hx => h x (by simp [hx])) s (fun x hx => hs x (by simp [hx]))

theorem canonicalise_plain {s : List Char} (h : ∀ t ∈ transforms, ¬ t.1 <:+: s) :
    canonicalise s = s.filter fun c => !stripped c := by
  unfold canonicalise
  rw [foldl_same transforms (fun _ h => h) s h]

theorem canonicalise_noPunct (s : List Char) : ∀ c ∈ canonicalise s, stripped c = false := by
  intro c hc
  have := (List.mem_filter.1 hc).2
  simpa using this

theorem replaceAll_length_le {o n : List Char} (h : Good o n) (s : List Char) :
    (replaceAll o n s).length ≤ s.length := by
  have hs := h.shorter
  generalize hN : s.length = N
  induction N using Nat.strong_induction_on generalizing s with
  | _ N ih =>
    cases hr : replaceFirst o n s with
    | none =>
      rw [replaceAll_same h ((replaceFirst_none h.ne).1 hr)]; omega
    | some s' =>
      rw [replaceAll_step h hr]
      obtain ⟨u, v, rfl, rfl⟩ := replaceFirst_some hr
      simp only [List.length_append] at hN
      have := ih _ (by simp only [List.length_append]; omega) (u ++ (n ++ v)) rfl
      simp only [List.length_append] at this ⊢
      omega

theorem replaceAll_length_lt {o n : List Char} (h : Good o n) {s : List Char} (hi : o <:+: s) :
    (replaceAll o n s).length < s.length := by
  have hs := h.shorter
  obtain ⟨u, v, rfl⟩ := hi
  rw [List.append_assoc, replaceAll_any h]
  have := replaceAll_length_le h (u ++ (n ++ v))
  simp only [List.length_append] at this ⊢
  omega

theorem foldl_length_le : ∀ (ts : List (List Char × List Char)), (∀ t ∈ ts, t ∈ transforms) →
    ∀ s : List Char, (ts.foldl (fun r t => replaceAll t.1 t.2 r) s).length ≤ s.length := by
  intro ts
  induction ts with
  | nil => intros; exact Nat.le_refl _
  | cons t ts ih =>
    intro h s
    rw [List.foldl_cons]
    exact Nat.le_trans (ih (fun x hx => h x (by simp [hx])) _)
      (replaceAll_length_le (transforms_good t (h t (by simp))) s)

theorem foldl_length_lt : ∀ (ts : List (List Char × List Char)), (∀ t ∈ ts, t ∈ transforms) →
    ∀ s : List Char, (∃ t ∈ ts, t.1 <:+: s) →
      (ts.foldl (fun r t => replaceAll t.1 t.2 r) s).length < s.length := by
  intro ts
  induction ts with
  | nil => rintro _ s ⟨t, ht, _⟩; simp at ht
  | cons t ts ih =>
    rintro h s ⟨x, hx, hxs⟩
    rw [List.foldl_cons]
    have hg := transforms_good t (h t (by simp))
    by_cases ht : t.1 <:+: s
    · exact Nat.lt_of_le_of_lt (foldl_length_le ts (fun x hx => h x (by simp [hx])) _)
        (replaceAll_length_lt hg ht)
    · rw [replaceAll_same hg ht]
      rcases List.mem_cons.1 hx with rfl | hx
      · exact absurd hxs ht
      · exact ih (fun x hx => h x (by simp [hx])) s ⟨x, hx, hxs⟩

theorem canonicalise_length_lt {s : List Char} (h : ∃ t ∈ transforms, t.1 <:+: s) :
    (canonicalise s).length < s.length := by
  unfold canonicalise
  exact Nat.lt_of_le_of_lt (List.length_filter_le _ _)
    (foldl_length_lt transforms (fun _ h => h) s h)

/-- The rules before a rule leave the text alone: writing a word out or not makes no difference. -/
theorem canonicalise_word {pre post : List (List Char × List Char)} {o n : List Char}
    (ht : transforms = pre ++ (o, n) :: post) (u v : List Char)
    (h1 : ∀ t ∈ pre, ¬ t.1 <:+: u ++ (o ++ v)) (h2 : ∀ t ∈ pre, ¬ t.1 <:+: u ++ (n ++ v)) :
    canonicalise (u ++ (o ++ v)) = canonicalise (u ++ (n ++ v)) := by
  have hp : ∀ t ∈ pre, t ∈ transforms := fun t h => by rw [ht]; simp [h]
  unfold canonicalise
  rw [ht, List.foldl_append, List.foldl_append, foldl_same pre hp _ h1, foldl_same pre hp _ h2,
    List.foldl_cons, List.foldl_cons]
  rw [replaceAll_any (transforms_good (o, n) (by rw [ht]; simp)) u v]

/-! ### Names in the table -/

theorem transforms_words : transforms = Spec.words := rfl

theorem stripped_iff (c : Char) : stripped c = true ↔ c ∈ Spec.punctuation := by
  simp [stripped, Spec.punctuation, or_assoc]

theorem bare_filter (s : List Char) : Spec.bare s = s.filter fun c => !stripped c := by
  unfold Spec.bare
  congr 1
  funext c
  cases h : stripped c
  · have : c ∉ Spec.punctuation := fun hp => by
      rw [(stripped_iff c).2 hp] at h
      cases h
    simp [this]
  · simp [(stripped_iff c).1 h]

theorem word_bare {t : List Char × List Char} (ht : t ∈ Spec.words) : Spec.bare t.1 = t.1 := by
  rw [bare_filter, List.filter_eq_self]
  intro c hc
  rw [transforms_bare t ht c hc]
  rfl

theorem canonicalise_bare {s : List Char} (hw : ∀ t ∈ Spec.words, ¬ t.1 <:+: Spec.bare s) :
    canonicalise s = Spec.bare s := by
  rw [canonicalise_plain, bare_filter]
  intro t ht hi
  apply hw t ht
  have := hi.filter fun c => !stripped c
  rwa [← bare_filter, ← bare_filter, word_bare ht] at this

theorem lookup_nil : lookupName [] = .invalid := by decide +kernel

theorem identify_bare {s : List Char} (hw : ∀ t ∈ Spec.words, ¬ t.1 <:+: Spec.bare s)
    (hc : ∀ c ∈ (Spec.bare s).head?, c ∉ c!"ISDU") : identify s = lookupName (Spec.bare s) := by
  have he := canonicalise_bare hw
  cases s with
  | nil => exact lookup_nil.symm
  | cons c cs =>
    have hn : c ∉ c!"ISDU" := by
      intro hm
      refine hc c ?_ hm
      have : c ∉ Spec.punctuation := by
        simp only [List.mem_cons, List.not_mem_nil, or_false] at hm
        rcases hm with rfl | rfl | rfl | rfl <;> decide
      rw [Spec.bare, List.filter_cons]
      simp [this]
    simp only [List.mem_cons, List.not_mem_nil, or_false, not_or] at hn
    rw [← he]
    simp [identify, hn.1, hn.2.1, hn.2.2.1, hn.2.2.2]

def letterFlags : List Nat := [FLG_INCLUDEPATH, FLG_SPECPATH, FLG_DEFINE, FLG_UNDEFINE]

def checkFrom : Nat → List Row → Bool
  | _, [] => true
  | f, r :: rs =>
    (letterFlags.contains f
      || (transforms.all (fun t => (replaceFirst t.1 t.2 r.name).isNone)
          && !(r.name.head?.any (c!"ISDU").contains)))
    && checkFrom (f + 1) rs

theorem checkFrom_ok : checkFrom 0 table = true := by decide +kernel

theorem checkFrom_get : ∀ (k : Nat) (rs : List Row), checkFrom k rs = true → ∀ f r,
    rs[f]? = some r → (k + f ∈ letterFlags)
      ∨ (∀ t ∈ Spec.words, ¬ t.1 <:+: r.name) ∧ ∀ c ∈ r.name.head?, c ∉ c!"ISDU" := by
  intro k rs
  induction rs generalizing k with
  | nil => intro _ f r hr; simp at hr
  | cons q rs ih =>
    intro h f r hr
    simp only [checkFrom, Bool.and_eq_true, Bool.or_eq_true] at h
    cases f with
    | zero =>
      simp only [List.getElem?_cons_zero, Option.some.injEq] at hr
      subst hr
      rcases h.1 with h1 | h1
      · left; simpa using h1
      · right
        refine ⟨fun t ht => ?_, fun c hc hm => ?_⟩
        · have := List.all_eq_true.1 h1.1 t ht
          exact (replaceFirst_none (transforms_good t ht).ne).1 (Option.isNone_iff_eq_none.1 this)
        · have h2 := h1.2
          rw [Option.mem_def.1 hc] at h2
          simp only [Option.any_some, Bool.not_eq_true'] at h2
          rw [List.contains_iff_mem.2 hm] at h2
          cases h2
    | succ f =>
      have := ih (k + 1) h.2 f r (by simpa using hr)
      rwa [show k + 1 + f = k + (f + 1) by omega] at this

/-- The names are all different, by their numbers in the table. -/
def distinctFrom : Nat → List Row → Bool
  | _, [] => true
  | f, r :: rs => decide (table.findIdx? (fun q => q.name == r.name) = some f)
    && distinctFrom (f + 1) rs

theorem distinctFrom_ok : distinctFrom 0 table = true := by decide +kernel

theorem distinctFrom_get : ∀ (k : Nat) (rs : List Row), distinctFrom k rs = true → ∀ f r,
    rs[f]? = some r → table.findIdx? (fun q => q.name == r.name) = some (k + f) := by
  intro k rs
  induction rs generalizing k with
  | nil => intro _ f r hr; simp at hr
  | cons q rs ih =>
    intro h f r hr
    simp only [distinctFrom, Bool.and_eq_true, decide_eq_true_eq] at h
    cases f with
    | zero =>
      simp only [List.getElem?_cons_zero, Option.some.injEq] at hr
      subst hr
      exact h.1
    | succ f =>
      have := ih (k + 1) h.2 f r (by simpa using hr)
      rwa [show k + 1 + f = k + (f + 1) by omega] at this

theorem lookup_name {f : Nat} {r : Row} (hr : table[f]? = some r) :
    lookupName r.name = .flag f := by
  have := distinctFrom_get 0 table distinctFrom_ok f r hr
  rw [Nat.zero_add] at this
  simp [lookupName, this]

theorem names_plain {f : Nat} {r : Row} (hr : table[f]? = some r) :
    f ∈ letterFlags ∨ (∀ t ∈ Spec.words, ¬ t.1 <:+: r.name)
      ∧ (∀ c ∈ r.name.head?, c ∉ c!"ISDU") ∧ lookupName r.name = .flag f := by
  have := checkFrom_get 0 table checkFrom_ok f r hr
  rw [Nat.zero_add] at this
  rcases this with h | ⟨h1, h2⟩
  · exact .inl h
  · exact .inr ⟨h1, h2, lookup_name hr⟩

/-- The test made for each of the other names. -/
def otherOk (p : List Char × List Char) : Bool :=
  (Spec.words.all fun t => decide (¬ t.1 <:+: p.1)) && (p.1.head?.all fun c => !(c!"ISDU").contains c)
  && decide (lookupName p.1 = identify p.2)
  && match identify p.2 with
     | .flag f => (table[f]?).any fun r => r.name == p.2
     | _ => false

theorem otherOk_all : Spec.otherNames.all otherOk = true := by decide +kernel

theorem otherNames_ok (p : List Char × List Char) (h : p ∈ Spec.otherNames) :
    ((∀ t ∈ Spec.words, ¬ t.1 <:+: p.1) ∧ ∀ c ∈ p.1.head?, c ∉ c!"ISDU")
    ∧ lookupName p.1 = identify p.2
    ∧ ∃ f r, identify p.2 = .flag f ∧ table[f]? = some r ∧ r.name = p.2 := by
  have := List.all_eq_true.1 otherOk_all p h
  unfold otherOk at this
  simp only [Bool.and_eq_true, List.all_eq_true, decide_eq_true_eq] at this
  obtain ⟨⟨⟨h1, h2⟩, h3⟩, h4⟩ := this
  refine ⟨⟨?_, ?_⟩, h3, ?_⟩
  · exact h1
  · intro c hc hm
    rw [Option.all_eq_true] at h2
    have := h2 c hc
    rw [List.contains_iff_mem.2 hm] at this
    cases this
  · revert h4
    cases identify p.2 with
    | flag f =>
      intro h4
      simp only [Option.any_eq_true] at h4
      obtain ⟨r, hr, hn⟩ := h4
      exact ⟨f, r, rfl, hr, by simpa using hn⟩
    | _ => intro h4; cases h4

/-! ### Words written out -/

/-- All spellings of a name. -/
def spell : Nat → List Char → List (List Char)
  | 0, _ => [[]]
  | _, [] => [[]]
  | k + 1, c :: cs =>
    (spell k cs).map (c :: ·)
    ++ (Spec.words.filter (fun w => w.2.isPrefixOf (c :: cs))).flatMap
        (fun w => (spell k ((c :: cs).drop w.2.length)).map (w.1 ++ ·))

theorem short_pos : ∀ w ∈ Spec.words, 0 < w.2.length := by decide +kernel

theorem spell_complete {n s : List Char} (h : Spec.Spelling n s) :
    ∀ k, n.length ≤ k → s ∈ spell k n := by
  induction h with
  | nil => intro k _; cases k <;> simp [spell]
  | char c _ ih =>
    intro k hk
    cases k with
    | zero => simp at hk
    | succ k =>
      rw [spell]
      refine List.mem_append_left _ (List.mem_map.2 ⟨_, ih k (by simpa using hk), rfl⟩)
  | @word full short hw n s _ ih =>
    intro k hk
    have hp := short_pos _ hw
    cases short with
    | nil => simp at hp
    | cons c cs =>
      cases k with
      | zero => simp at hk
      | succ k =>
        rw [List.cons_append, spell]
        refine List.mem_append_right _ (List.mem_flatMap.2 ⟨(full, c :: cs), ?_, ?_⟩)
        · rw [List.mem_filter]
          refine ⟨hw, ?_⟩
          rw [isPrefixOf_iff]
          exact ⟨n, rfl⟩
        · refine List.mem_map.2 ⟨s, ?_, rfl⟩
          rw [← List.cons_append]
          simp only [List.drop_left]
          exact ih k (by simp only [List.length_append, List.length_cons] at hk; omega)

def spelledFrom : Nat → List Row → Bool
  | _, [] => true
  | f, r :: rs =>
    (spell r.name.length r.name).all (fun s =>
      if s.head?.any (c!"ISDU").contains then identify s == .flag f else canonicalise s == r.name)
    && spelledFrom (f + 1) rs

theorem spelledFrom_ok : spelledFrom 0 table = true := by decide +kernel

theorem spelledFrom_get : ∀ (k : Nat) (rs : List Row), spelledFrom k rs = true → ∀ f r,
    rs[f]? = some r → ∀ s, s ∈ spell r.name.length r.name →
      if s.head?.any (c!"ISDU").contains then identify s = .flag (k + f)
      else canonicalise s = r.name := by
  intro k rs
  induction rs generalizing k with
  | nil => intro _ f r hr; simp at hr
  | cons q rs ih =>
    intro h f r hr s hs
    simp only [spelledFrom, Bool.and_eq_true] at h
    cases f with
    | zero =>
      simp only [List.getElem?_cons_zero, Option.some.injEq] at hr
      subst hr
      have := List.all_eq_true.1 h.1 s hs
      split_ifs at this ⊢
      · simpa using this
      · simpa using this
    | succ f =>
      have := ih (k + 1) h.2 f r (by simpa using hr) s hs
      rwa [show k + 1 + f = k + (f + 1) by omega] at this

theorem identify_other {s : List Char} (h : s.head?.any (c!"ISDU").contains = false) :
    identify s = lookupName (canonicalise s) := by
  cases s with
  | nil => exact lookup_nil.symm
  | cons c cs =>
    simp only [List.head?_cons, Option.any_some, List.contains_eq_mem, decide_eq_false_iff_not,
      List.mem_cons, List.not_mem_nil, or_false, not_or] at h
    simp [identify, h.1, h.2.1, h.2.2.1, h.2.2.2]

theorem spelled {f : Nat} {r : Row} (hr : table[f]? = some r) {s : List Char}
    (hs : Spec.Spelling r.name s) : identify s = .flag f := by
  have := spelledFrom_get 0 table spelledFrom_ok f r hr s (spell_complete hs _ (Nat.le_refl _))
  split_ifs at this with hh
  · rwa [Nat.zero_add] at this
  · rw [identify_other (by simpa using hh), this]
    exact lookup_name hr

theorem spelling_refl : ∀ n : List Char, Spec.Spelling n n
  | [] => .nil
  | c :: n => .char c (spelling_refl n)

theorem name_identified {f : Nat} {r : Row} (hr : table[f]? = some r) :
    identify r.name = .flag f := spelled hr (spelling_refl _)

/-! ### Modes -/

theorem synonyms_noMode : ∀ t ∈ synonyms, t.2 ≠ .modeName := by decide +kernel

theorem modes_lookup : ∀ m ∈ modeNames, lookupName m = .modeName := by decide +kernel

theorem lookup_mode (n : List Char) : lookupName n = .modeName ↔ n ∈ modeNames := by
  constructor
  · intro h
    unfold lookupName at h
    split at h
    · cases h
    · split at h
      · rename_i i hi
        rw [List.lookup_eq_some_iff] at hi
        obtain ⟨l1, l2, he, -⟩ := hi
        exact absurd h (synonyms_noMode (n, i) (by rw [he]; simp))
      · split_ifs at h with hc
        exact List.contains_iff_mem.1 hc
  · exact modes_lookup n

theorem modes_iff (s : List Char) (hc : ∀ c ∈ s.head?, c ∉ c!"ISDU") :
    identify s = .modeName ↔ canonicalise s ∈ [c!"weak", c!"standard", c!"checks", c!"strict"] := by
  rw [identify_other, lookup_mode]
  · rfl
  · cases hh : s.head? with
    | none => rfl
    | some c =>
      have := hc c hh
      simpa using this

end Splint.Flag
