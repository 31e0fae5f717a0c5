import Verif.Tactics
import Verif.Spec.SortCheck
/-!
# C132: the sorts of terms in specifications
-/
namespace Splint
namespace SortCheck

variable {env : Env}

/-! ### Sets of sorts -/

theorem eqv_iff (a b : Nat) : eqv env a b = true ↔ Same env a b := by
  unfold eqv Same
  constructor
  · intro h
    rcases (Bool.or_eq_true_iff).1 h with h | h
    · rw [eq_of_beq h]
    · exact eq_of_beq h
  · intro h
    simp [h]

theorem mem_iff (s : Nat) (l : List Nat) : mem env s l = true ↔ ∃ x ∈ l, Same env s x := by
  simp [mem, List.any_eq_true, eqv_iff]

theorem Same.symm {a b : Nat} (h : Same env a b) : Same env b a := Eq.symm h
theorem Same.trans {a b c : Nat} (h : Same env a b) (h' : Same env b c) : Same env a c := Eq.trans h h'

theorem insAll_sub (x : Nat) : ∀ (ss l : List Nat), x ∈ insAll env l ss → x ∈ l ∨ x ∈ ss
  | [], l, h => Or.inl h
  | s :: ss, l, h => by
    rcases insAll_sub x ss _ h with h | h
    · unfold ins at h
      split at h
      · exact Or.inl h
      · rcases List.mem_append.1 h with h | h
        · exact Or.inl h
        · right; rw [List.mem_singleton.1 h]; exact List.mem_cons_self
    · exact Or.inr (List.mem_cons_of_mem _ h)

theorem insAll_sup (s : Nat) : ∀ (ss l : List Nat), ((∃ x ∈ l, Same env s x) ∨ ∃ x ∈ ss, Same env s x) →
    ∃ x ∈ insAll env l ss, Same env s x
  | [], l, h => by
    rcases h with h | ⟨x, hx, -⟩
    · exact h
    · cases hx
  | a :: ss, l, h => by
    have hsub : ∀ x ∈ l, x ∈ ins env l a := by
      intro x hx
      unfold ins
      split
      · exact hx
      · exact List.mem_append_left _ hx
    have ha : ∃ x ∈ ins env l a, Same env a x := by
      unfold ins
      split
      · next h => exact (mem_iff a l).1 h
      · exact ⟨a, by simp, rfl⟩
    apply insAll_sup s ss
    rcases h with ⟨x, hx, hs⟩ | ⟨x, hx, hs⟩
    · exact Or.inl ⟨x, hsub x hx, hs⟩
    · rcases List.mem_cons.1 hx with rfl | hx
      · obtain ⟨y, hy, hxy⟩ := ha
        exact Or.inl ⟨y, hy, hs.trans hxy⟩
      · exact Or.inr ⟨x, hx, hs⟩

theorem insAll_nodup : ∀ (ss l : List Nat), l.Pairwise (fun a b => ¬ Same env a b) →
    (insAll env l ss).Pairwise (fun a b => ¬ Same env a b)
  | [], l, h => h
  | a :: ss, l, h => by
    apply insAll_nodup ss
    unfold ins
    split
    · exact h
    · next hm =>
      rw [List.pairwise_append]
      refine ⟨h, by simp, ?_⟩
      intro x hx y hy hxy
      rw [List.mem_singleton.1 hy] at hxy
      exact hm ((mem_iff a l).2 ⟨x, hx, hxy.symm⟩)

/-! ### The sorts found can be had -/

theorem domainMatches_pick : ∀ (ds : List Nat) (as : List (List Nat)), ds.length = as.length →
    domainMatches env ds as = true → ∃ xs, List.Forall₂ (· ∈ ·) xs as ∧ List.Forall₂ (Same env) ds xs
  | [], [], _, _ => ⟨[], .nil, .nil⟩
  | [], _ :: _, h, _ => by simp at h
  | _ :: _, [], h, _ => by simp at h
  | d :: ds, a :: as, h, hm => by
    simp only [domainMatches, Bool.and_eq_true] at hm
    obtain ⟨x, hx, hdx⟩ := (mem_iff d a).1 hm.1
    obtain ⟨xs, h1, h2⟩ := domainMatches_pick ds as (by simpa using h) hm.2
    exact ⟨x :: xs, .cons hx h1, .cons hdx h2⟩

theorem domainMatches_of : ∀ (ds ss : List Nat) (as : List (List Nat)), List.Forall₂ (Same env) ds ss →
    List.Forall₂ (fun s a => ∃ x ∈ a, Same env s x) ss as → ds.length = as.length ∧ domainMatches env ds as = true
  | _, _, _, .nil, .nil => ⟨rfl, rfl⟩
  | _, _, _, .cons h1 h2, .cons ⟨x, hx, h3⟩ h4 => by
    obtain ⟨h5, h6⟩ := domainMatches_of _ _ _ h2 h4
    refine ⟨by simp [h5], ?_⟩
    simp only [domainMatches, Bool.and_eq_true]
    exact ⟨(mem_iff _ _).2 ⟨x, hx, h1.trans h3⟩, h6⟩

theorem mem_legal (f g : Nat) (as : List (List Nat)) (sig : Sig) :
    sig ∈ legal env f g as ↔ sig ∈ env.ops f ∧ sig.dom.length = as.length ∧ Fits env g sig.range ∧
      domainMatches env sig.dom as = true := by
  unfold legal Fits
  simp only [List.mem_filter, Bool.and_eq_true, Bool.or_eq_true, beq_iff_eq, eqv_iff]
  tauto

theorem standards_no (f : Nat) (as : List (List Nat)) (h : env.std f = .no) : standards env f as = [] := by
  unfold standards
  rw [h]

/-- What the operators give is by their rules. -/
theorem standards_rule (f : Nat) (as : List (List Nat)) (s : Nat) (h : s ∈ standards env f as) :
    ∃ xs, List.Forall₂ (· ∈ ·) xs as ∧ StdRule env (env.std f) xs s := by
  unfold standards at h
  split at h
  · next a hs =>
    obtain ⟨x, hx, rfl⟩ := List.mem_map.1 h
    obtain ⟨hx, ho⟩ := List.mem_filter.1 hx
    rw [hs]
    exact ⟨[x], .cons hx .nil, .object ho⟩
  · next a hs =>
    obtain ⟨x, hx, rfl⟩ := List.mem_map.1 h
    obtain ⟨hx, ho⟩ := List.mem_filter.1 hx
    rw [hs]
    exact ⟨[x], .cons hx .nil, .size ho⟩
  · next a hs =>
    obtain ⟨x, hx, rfl⟩ := List.mem_map.1 h
    obtain ⟨hx, ho⟩ := List.mem_filter.1 hx
    rw [hs]
    exact ⟨[x], .cons hx .nil, .index ho⟩
  · next a hs =>
    obtain ⟨x, hx, ho⟩ := List.mem_filterMap.1 h
    rw [hs]
    exact ⟨[x], .cons hx .nil, .state ho⟩
  · next a hs =>
    obtain ⟨x, hx, ho⟩ := List.mem_filterMap.1 h
    rw [hs]
    exact ⟨[x], .cons hx .nil, .deref ho⟩
  · next c a b hs =>
    split at h
    · next hc =>
      obtain ⟨z, hz, hbz⟩ := (mem_iff _ _).1 hc
      split at h
      · next x y =>
        split at h
        · next hxy =>
          rw [List.mem_singleton.1 h, hs]
          exact ⟨[z, x, y], .cons hz (.cons (by simp) (.cons (by simp) .nil)), .ite hbz ((eqv_iff _ _).1 hxy)⟩
        · cases h
      · cases h
    · cases h
  · next a b hs =>
    split at h
    · next x =>
      obtain ⟨y, hy, rfl⟩ := List.mem_map.1 h
      obtain ⟨hy, hxy⟩ := List.mem_filter.1 hy
      rw [hs]
      exact ⟨[x, y], .cons (by simp) (.cons hy .nil), .compare ((eqv_iff _ _).1 hxy)⟩
    · cases h
  · cases h

theorem mem_poss_app (f g : Nat) (args : Ts) (x : Nat) (h : x ∈ poss env (.app f g args)) :
    ∃ as, possArgs env args = some as ∧ ((∃ sig ∈ legal env f g as, sig.range = x) ∨ x ∈ standards env f as) := by
  rw [poss] at h
  cases hp : possArgs env args with
  | none => rw [hp] at h; cases h
  | some as =>
    rw [hp] at h
    refine ⟨as, rfl, ?_⟩
    rcases insAll_sub x _ _ h with h | h
    · rcases insAll_sub x _ _ h with h | h
      · cases h
      · exact Or.inl (by simpa using h)
    · rcases insAll_sub x _ _ h with h | h
      · cases h
      · exact Or.inr h

theorem possArgs_inv (t : T) (ts : Ts) (as : List (List Nat)) (h : possArgs env (.cons t ts) = some as) :
    ∃ as', as = poss env t :: as' ∧ possArgs env ts = some as' := by
  rw [possArgs] at h
  cases h1 : poss env t with
  | nil => rw [h1] at h; cases h
  | cons a l =>
    cases h2 : possArgs env ts with
    | none => rw [h1, h2] at h; cases h
    | some as' => rw [h1, h2] at h; cases h; exact ⟨as', rfl, rfl⟩

theorem possArgs_nil_inv (as : List (List Nat)) (h : possArgs env .nil = some as) : as = [] := by
  rw [possArgs] at h
  cases h
  rfl

mutual
theorem sound_aux : ∀ (t : T), Clean env t → ∀ x ∈ poss env t, ∃ e, Elab env t e x
  | .leaf l g ss, hc, x, hx => ⟨.leaf x, .leaf hx (Or.inl hc)⟩
  | .app f g args, hc, x, hx => by
    obtain ⟨as, hp, h⟩ := mem_poss_app f g args x hx
    rcases h with ⟨sig, hsig, rfl⟩ | h
    · obtain ⟨h1, h2, h3, h4⟩ := (mem_legal f g as sig).1 hsig
      obtain ⟨xs, h5, h6⟩ := domainMatches_pick _ _ h2 h4
      obtain ⟨es, hes⟩ := soundArgs_aux args hc.2 as hp xs h5
      exact ⟨.op sig es, .op h1 h3 hes h6⟩
    · obtain ⟨xs, h5, h6⟩ := standards_rule f as x h
      obtain ⟨es, hes⟩ := soundArgs_aux args hc.2 as hp xs h5
      have hg : g = 0 := by
        rcases hc.1 with hn | hg
        · rw [standards_no f as hn] at h; cases h
        · exact hg
      exact ⟨.std x es, .std hes h6 (Or.inl hg)⟩
theorem soundArgs_aux : ∀ (ts : Ts), Cleans env ts → ∀ as, possArgs env ts = some as →
    ∀ xs, List.Forall₂ (· ∈ ·) xs as → ∃ es, Elabs env ts es xs
  | .nil, _, as, hp, xs, h => by
    rw [possArgs] at hp
    cases hp
    cases h
    exact ⟨.nil, .nil⟩
  | .cons t ts, hc, as, hp, xs, h => by
    obtain ⟨as', rfl, h2⟩ := possArgs_inv t ts as hp
    cases h with
    | cons hx hxs =>
      obtain ⟨e, he⟩ := sound_aux t hc.1 _ hx
      obtain ⟨es, hes⟩ := soundArgs_aux ts hc.2 _ h2 _ hxs
      exact ⟨.cons e es, .cons he hes⟩
end

/-- **C132**, soundness: every sort that is found for a term is the sort of a reading of it. -/
theorem C132_sound_partial (t : T) (hc : Clean env t) (s : Nat) (h : mem env s (poss env t) = true) : HasSort env t s := by
  obtain ⟨x, hx, hs⟩ := (mem_iff s _).1 h
  obtain ⟨e, he⟩ := sound_aux t hc x hx
  exact ⟨e, x, he, hs.symm⟩

/-! ### Which sorts are found -/

theorem poss_nodup : ∀ (t : T), WF env t → (poss env t).Pairwise fun a b => ¬ Same env a b
  | .leaf _ _ ss, h => h.2
  | .app f g args, _ => by
    rw [poss]
    split
    · exact List.Pairwise.nil
    · exact insAll_nodup _ _ (insAll_nodup _ _ List.Pairwise.nil)

theorem one_of (l : List Nat) (hn : l.Pairwise fun a b => ¬ Same env a b) (h : ∀ x ∈ l, ∀ y ∈ l, Same env x y)
    (z : Nat) (hz : z ∈ l) : l = [z] := by
  match l, hn, h, hz with
  | [x], _, _, hz => rw [List.mem_singleton.1 hz]
  | x :: y :: l, hn, h, _ =>
    rw [List.pairwise_cons] at hn
    exact absurd (h x (by simp) y (by simp)) (hn.1 y (by simp))

theorem poss_one (t : T) (hw : WF env t) (hc : Clean env t) (ho : OneSort env t) (z : Nat) (hz : z ∈ poss env t) :
    poss env t = [z] := by
  apply one_of _ (poss_nodup t hw) _ z hz
  intro x hx y hy
  obtain ⟨e, he⟩ := sound_aux t hc x hx
  obtain ⟨e', he'⟩ := sound_aux t hc y hy
  exact ho x y ⟨e, x, he, rfl⟩ ⟨e', y, he', rfl⟩

theorem possArgs_cons {t : T} {ts : Ts} {x : Nat} (hx : x ∈ poss env t) {as : List (List Nat)}
    (h : possArgs env ts = some as) : possArgs env (.cons t ts) = some (poss env t :: as) := by
  rw [possArgs, h]
  cases hp : poss env t with
  | nil => rw [hp] at hx; cases hx
  | cons a l => rfl

theorem standards_found (hl : Lawful env) (f : Nat) (args : Ts) (hw : WFs env args) (hc : Cleans env args)
    (hn : Narrow env (env.std f) args) (ss : List Nat) (s : Nat) (hr : StdRule env (env.std f) ss s)
    (as : List (List Nat)) (hp : possArgs env args = some as)
    (h : List.Forall₂ (fun s a => ∃ x ∈ a, Same env s x) ss as) : ∃ x ∈ standards env f as, Same env s x := by
  generalize hst : env.std f = st at hr hn
  cases hr with
  | @ite c a b h1 h2 =>
    cases h with
    | cons hx h => cases h with
      | cons hy h => cases h with
        | cons hz h =>
          cases h
          obtain ⟨x, hx, hcx⟩ := hx
          obtain ⟨y, hy, hay⟩ := hy
          obtain ⟨z, hz, hbz⟩ := hz
          match args, hw, hc, hn, hp with
          | .nil, _, _, _, hp => cases possArgs_nil_inv _ hp
          | .cons tc .nil, _, _, _, hp =>
            obtain ⟨as', h3, hq1⟩ := possArgs_inv _ _ _ hp
            rw [possArgs_nil_inv _ hq1] at h3
            cases h3
          | .cons tc (.cons ta .nil), _, _, _, hp =>
            obtain ⟨as1, h3, hq1⟩ := possArgs_inv _ _ _ hp
            obtain ⟨as2, rfl, hq2⟩ := possArgs_inv _ _ _ hq1
            rw [possArgs_nil_inv _ hq2] at h3
            cases h3
          | .cons tc (.cons ta (.cons tb (.cons td ts))), _, _, _, hp =>
            obtain ⟨as1, h3, hq1⟩ := possArgs_inv _ _ _ hp
            obtain ⟨as2, rfl, hq2⟩ := possArgs_inv _ _ _ hq1
            obtain ⟨as3, rfl, hq3⟩ := possArgs_inv _ _ _ hq2
            obtain ⟨as4, rfl, hq4⟩ := possArgs_inv _ _ _ hq3
            cases h3
          | .cons tc (.cons ta (.cons tb .nil)), hw, hc, hn, hp =>
            obtain ⟨as1, h3, hq1⟩ := possArgs_inv _ _ _ hp
            obtain ⟨as2, rfl, hq2⟩ := possArgs_inv _ _ _ hq1
            obtain ⟨as3, rfl, hq3⟩ := possArgs_inv _ _ _ hq2
            cases h3
            have e1 := poss_one ta hw.2.1 hc.2.1 hn.1 y hy
            have e2 := poss_one tb hw.2.2.1 hc.2.2.1 hn.2 z hz
            have hm : mem env env.bool (poss env tc) = true := (mem_iff _ _).2 ⟨x, hx, h1.trans hcx⟩
            have he : eqv env y z = true := (eqv_iff _ _).2 (hay.symm.trans (h2.trans hbz))
            refine ⟨y, ?_, hay⟩
            unfold standards
            rw [hst, e1, e2]
            simp [hm, he]
  | @compare a b h1 =>
    cases h with
    | cons hx h => cases h with
      | cons hy h =>
        cases h
        obtain ⟨x, hx, hax⟩ := hx
        obtain ⟨y, hy, hby⟩ := hy
        match args, hw, hc, hn, hp with
        | .nil, _, _, _, hp => cases possArgs_nil_inv _ hp
        | .cons ta .nil, _, _, _, hp =>
          obtain ⟨as', h3, hq1⟩ := possArgs_inv _ _ _ hp
          rw [possArgs_nil_inv _ hq1] at h3
          cases h3
        | .cons ta (.cons tb (.cons td ts)), _, _, _, hp =>
          obtain ⟨as1, h3, hq1⟩ := possArgs_inv _ _ _ hp
          obtain ⟨as2, rfl, hq2⟩ := possArgs_inv _ _ _ hq1
          obtain ⟨as3, rfl, hq3⟩ := possArgs_inv _ _ _ hq2
          cases h3
        | .cons ta (.cons tb .nil), hw, hc, hn, hp =>
          obtain ⟨as1, h3, hq1⟩ := possArgs_inv _ _ _ hp
          obtain ⟨as2, rfl, hq2⟩ := possArgs_inv _ _ _ hq1
          cases h3
          have e1 := poss_one ta hw.1 hc.1 hn x hx
          have he : eqv env x y = true := (eqv_iff _ _).2 (hax.symm.trans (h1.trans hby))
          refine ⟨env.bool, ?_, rfl⟩
          unfold standards
          rw [hst, e1]
          exact List.mem_map.2 ⟨y, List.mem_filter.2 ⟨hy, he⟩, rfl⟩
  | @state a s h1 =>
    cases h with
    | cons hx h =>
      cases h
      obtain ⟨x, hx, hax⟩ := hx
      refine ⟨s, ?_, rfl⟩
      unfold standards
      rw [hst]
      exact List.mem_filterMap.2 ⟨x, hx, by rw [← hl.state a x hax]; exact h1⟩
  | @deref a s h1 =>
    cases h with
    | cons hx h =>
      cases h
      obtain ⟨x, hx, hax⟩ := hx
      refine ⟨s, ?_, rfl⟩
      unfold standards
      rw [hst]
      exact List.mem_filterMap.2 ⟨x, hx, by rw [← hl.deref a x hax]; exact h1⟩
  | @object a h1 =>
    cases h with
    | cons hx h =>
      cases h
      obtain ⟨x, hx, hax⟩ := hx
      refine ⟨_, ?_, rfl⟩
      unfold standards
      rw [hst]
      exact List.mem_map.2 ⟨x, List.mem_filter.2 ⟨hx, by rw [← hl.obj a x hax]; exact h1⟩, rfl⟩
  | @size a h1 =>
    cases h with
    | cons hx h =>
      cases h
      obtain ⟨x, hx, hax⟩ := hx
      refine ⟨_, ?_, rfl⟩
      unfold standards
      rw [hst]
      exact List.mem_map.2 ⟨x, List.mem_filter.2 ⟨hx, by rw [← hl.sized a x hax]; exact h1⟩, rfl⟩
  | @index a h1 =>
    cases h with
    | cons hx h =>
      cases h
      obtain ⟨x, hx, hax⟩ := hx
      refine ⟨_, ?_, rfl⟩
      unfold standards
      rw [hst]
      exact List.mem_map.2 ⟨x, List.mem_filter.2 ⟨hx, by rw [← hl.indexed a x hax]; exact h1⟩, rfl⟩

mutual
theorem complete_aux (hl : Lawful env) : ∀ (t : T), WF env t → Clean env t → Fine env t → ∀ e s, Elab env t e s →
    ∃ x ∈ poss env t, Same env s x
  | .leaf l g ss, _, _, _, e, s, h => by
    cases h with
    | leaf h1 _ => exact ⟨s, h1, rfl⟩
  | .app f g args, hw, hc, hf, e, s, h => by
    cases h with
    | op h1 h2 h3 h4 =>
      obtain ⟨as, hp, has⟩ := completeArgs_aux hl args hw hc.2 hf.2 _ _ h3
      obtain ⟨h5, h6⟩ := domainMatches_of _ _ _ h4 has
      rw [poss, hp]
      refine insAll_sup _ _ _ (Or.inl (insAll_sup _ _ _ (Or.inr ⟨_, ?_, rfl⟩)))
      exact List.mem_map.2 ⟨_, (mem_legal f g as _).2 ⟨h1, h5, h2, h6⟩, rfl⟩
    | std h1 h2 h3 =>
      obtain ⟨as, hp, has⟩ := completeArgs_aux hl args hw hc.2 hf.2 _ _ h1
      rw [poss, hp]
      refine insAll_sup _ _ _ (Or.inr (insAll_sup _ _ _ (Or.inr ?_)))
      exact standards_found hl f args hw hc.2 hf.1 _ _ h2 as hp has
theorem completeArgs_aux (hl : Lawful env) : ∀ (ts : Ts), WFs env ts → Cleans env ts → Fines env ts → ∀ es ss,
    Elabs env ts es ss → ∃ as, possArgs env ts = some as ∧ List.Forall₂ (fun s a => ∃ x ∈ a, Same env s x) ss as
  | .nil, _, _, _, es, ss, h => by
    cases h
    exact ⟨[], by rw [possArgs], .nil⟩
  | .cons t ts, hw, hc, hf, es, ss, h => by
    cases h with
    | cons h1 h2 =>
      obtain ⟨x, hx, hsx⟩ := complete_aux hl t hw.1 hc.1 hf.1 _ _ h1
      obtain ⟨as, hp, has⟩ := completeArgs_aux hl ts hw.2 hc.2 hf.2 _ _ h2
      exact ⟨_, possArgs_cons hx hp, .cons ⟨x, hx, hsx⟩ has⟩
end

/-- **C132**: the sorts that are found for a term are exactly those of its readings. -/
theorem C132_sorts_exactly (hl : Lawful env) (t : T) (hw : WF env t) (hc : Clean env t) (hf : Fine env t) (s : Nat) :
    mem env s (poss env t) = true ↔ HasSort env t s := by
  constructor
  · exact C132_sound_partial t hc s
  · rintro ⟨e, s', he, hs⟩
    obtain ⟨x, hx, hsx⟩ := complete_aux hl t hw hc hf e s' he
    exact (mem_iff _ _).2 ⟨x, hx, hs.symm.trans hsx⟩

/-! ### Messages about operators -/

mutual
theorem errs_iff : ∀ (t : T), WF env t → (errs env t = [] ↔ poss env t ≠ [])
  | .leaf _ _ ss, hw => by simp only [errs, poss, true_iff]; exact hw.1
  | .app f g args, hw => by
    have ih := errsArgs_iff args hw
    rw [errs, List.append_eq_nil_iff, ih]
    cases hp : possArgs env args with
    | none =>
      rw [poss, hp]
      simp
    | some as =>
      simp only [ne_eq, reduceCtorEq, not_false_eq_true, true_and]
      cases h : poss env (.app f g args) <;> simp
theorem errsArgs_iff : ∀ (ts : Ts), WFs env ts → (errsArgs env ts = [] ↔ possArgs env ts ≠ none)
  | .nil, _ => by simp [errsArgs, possArgs]
  | .cons t ts, hw => by
    rw [errsArgs, List.append_eq_nil_iff, errs_iff t hw.1, errsArgs_iff ts hw.2, possArgs]
    cases h1 : poss env t with
    | nil => simp
    | cons a l => cases h2 : possArgs env ts <;> simp
end

theorem exists_sort (hl : Lawful env) (t : T) (hw : WF env t) (hc : Clean env t) (hf : Fine env t) :
    poss env t ≠ [] ↔ ∃ s, HasSort env t s := by
  constructor
  · intro h
    obtain ⟨x, hx⟩ := List.exists_mem_of_ne_nil _ h
    obtain ⟨e, he⟩ := sound_aux t hc x hx
    exact ⟨x, e, x, he, rfl⟩
  · rintro ⟨s, hs⟩ h
    have := (C132_sorts_exactly hl t hw hc hf s).2 hs
    rw [h] at this
    cases this

/-- **C132**: an operator is reported to be undeclared exactly if the term has no reading. -/
theorem C132_undeclared_exactly (hl : Lawful env) (t : T) (hw : WF env t) (hc : Clean env t) (hf : Fine env t) :
    errs env t ≠ [] ↔ ¬ ∃ s, HasSort env t s := by
  rw [← exists_sort hl t hw hc hf, not_not, ne_eq, errs_iff t hw, not_not]

/-! ### Which terms are accepted -/

/-- The operator of the whole term is the same in all readings. -/
def RootOne (env : Env) (t : T) : Prop := ∀ sig es s sig' es' s', Elab env t (.op sig es) s →
  Elab env t (.op sig' es') s' → sig = sig'

theorem inner_nil (t : T) (hw : WF env t) (h : poss env t ≠ []) : inner env t = [] := by
  cases t with
  | leaf _ _ _ => rfl
  | app f g args =>
    have := (errs_iff _ hw).2 h
    rw [errs, List.append_eq_nil_iff] at this
    exact this.1

theorem errs_inner (t : T) : ∃ l, errs env t = inner env t ++ l := by
  cases t with
  | leaf _ _ _ => exact ⟨[], rfl⟩
  | app f g args => rw [errs]; exact ⟨_, rfl⟩

theorem check_nil (t : T) (hw : WF env t) (h : poss env t = []) : check env t ≠ [] := by
  have h1 : errs env t ≠ [] := fun h2 => (errs_iff t hw).1 h2 h
  obtain ⟨l, hl⟩ := errs_inner (env := env) t
  unfold check own
  rw [h]
  simp only [hl, List.drop_left]
  rw [← hl]
  exact h1

theorem elab_legal (hl : Lawful env) (f g : Nat) (args : Ts) (hw : WFs env args) (hc : Cleans env args)
    (hf : Fines env args) (sig : Sig) (es : Es) (s : Nat) (h : Elab env (.app f g args) (.op sig es) s) :
    sig ∈ possOps env (.app f g args) ∧ s = sig.range := by
  cases h with
  | op h1 h2 h3 h4 =>
    obtain ⟨as, hp, has⟩ := completeArgs_aux hl args hw hc hf _ _ h3
    obtain ⟨h5, h6⟩ := domainMatches_of _ _ _ h4 has
    refine ⟨?_, rfl⟩
    unfold possOps
    simp only [hp]
    exact (mem_legal f g as sig).2 ⟨h1, h5, h2, h6⟩

theorem legal_elab (f g : Nat) (args : Ts) (hc : Cleans env args) (sig : Sig)
    (h : sig ∈ possOps env (.app f g args)) : ∃ es, Elab env (.app f g args) (.op sig es) sig.range := by
  unfold possOps at h
  cases hp : possArgs env args with
  | none => simp [hp] at h
  | some as =>
    simp only [hp] at h
    obtain ⟨h1, h2, h3, h4⟩ := (mem_legal f g as sig).1 h
    obtain ⟨xs, h5, h6⟩ := domainMatches_pick _ _ h2 h4
    obtain ⟨es, hes⟩ := soundArgs_aux args hc as hp xs h5
    exact ⟨es, .op h1 h3 hes h6⟩

/-- **C132**: a term made of an operator is accepted exactly if it has a reading, all its readings have the same sort,
and all of them choose the same operator for the whole term. -/
theorem C132_accepted_exactly (hl : Lawful env) (f g : Nat) (args : Ts) (hw : WFs env args)
    (hc : Clean env (.app f g args)) (hf : Fine env (.app f g args)) (hn : (env.ops f).Nodup) :
    check env (.app f g args) = [] ↔
      (∃ s, HasSort env (.app f g args) s) ∧ OneSort env (.app f g args) ∧ RootOne env (.app f g args) := by
  set t := T.app f g args with ht
  have hwt : WF env t := hw
  have hone : ∀ x, poss env t = [x] → OneSort env t := by
    intro x hx s s' h h'
    have h1 := (C132_sorts_exactly hl t hwt hc hf s).2 h
    have h2 := (C132_sorts_exactly hl t hwt hc hf s').2 h'
    rw [hx] at h1 h2
    obtain ⟨y, hy, h1⟩ := (mem_iff _ _).1 h1
    obtain ⟨z, hz, h2⟩ := (mem_iff _ _).1 h2
    rw [List.mem_singleton.1 hy] at h1
    rw [List.mem_singleton.1 hz] at h2
    exact h1.trans h2.symm
  constructor
  · intro h
    have hne : poss env t ≠ [] := fun he => check_nil t hwt he h
    have hex := (exists_sort hl t hwt hc hf).1 hne
    unfold check own at h
    rw [List.append_eq_nil_iff] at h
    match hp : poss env t, hne with
    | [x], _ =>
      refine ⟨hex, hone x hp, ?_⟩
      intro sig es s sig' es' s' h1 h2
      obtain ⟨m1, r1⟩ := elab_legal hl f g args hw hc.2 hf.2 _ _ _ h1
      obtain ⟨m2, r2⟩ := elab_legal hl f g args hw hc.2 hf.2 _ _ _ h2
      have h3 := h.2
      simp only [hp] at h3
      rw [ht, assign] at h3
      have hx : ∀ y, HasSort env t y → eqv env x y = true := by
        intro y hy
        have := (C132_sorts_exactly hl t hwt hc hf y).2 hy
        rw [hp] at this
        obtain ⟨z, hz, h'⟩ := (mem_iff _ _).1 this
        rw [List.mem_singleton.1 hz] at h'
        exact (eqv_iff _ _).2 h'.symm
      have f1 : sig ∈ (possOps env (.app f g args)).filter fun sig => eqv env x sig.range :=
        List.mem_filter.2 ⟨m1, hx _ ⟨_, _, h1, by rw [r1]; rfl⟩⟩
      have f2 : sig' ∈ (possOps env (.app f g args)).filter fun sig => eqv env x sig.range :=
        List.mem_filter.2 ⟨m2, hx _ ⟨_, _, h2, by rw [r2]; rfl⟩⟩
      match hfl : (possOps env (.app f g args)).filter (fun sig => eqv env x sig.range) with
      | [] => rw [hfl] at f1; cases f1
      | [op] =>
        rw [hfl] at f1 f2
        rw [List.mem_singleton.1 f1, List.mem_singleton.1 f2]
      | a :: b :: l => rw [hfl] at h3; cases h3
    | x :: y :: l, _ =>
      have h3 := h.2
      simp only [hp] at h3
      cases h3
  · rintro ⟨hex, ho, hr⟩
    have hne := (exists_sort hl t hwt hc hf).2 hex
    obtain ⟨x, hx⟩ := List.exists_mem_of_ne_nil _ hne
    have hp := poss_one t hwt hc ho x hx
    unfold check own
    rw [inner_nil t hwt hne]
    simp only [hp, List.nil_append]
    rw [ht, assign]
    match hfl : (possOps env (.app f g args)).filter (fun sig => eqv env x sig.range) with
    | [] => rw [hfl, ← ht, hp]; rfl
    | [op] =>
      rw [hfl]
      show (if args.empty = true then assignArgs env args op.dom else []) = []
      cases args with
      | nil => simp [Ts.empty, assignArgs]
      | cons _ _ => simp [Ts.empty]
    | a :: b :: l =>
      exfalso
      have ha : a ∈ possOps env (.app f g args) := by
        have h0 : a ∈ (possOps env (.app f g args)).filter fun sig => eqv env x sig.range := by rw [hfl]; simp
        exact (List.mem_filter.1 h0).1
      have hb : b ∈ possOps env (.app f g args) := by
        have h0 : b ∈ (possOps env (.app f g args)).filter fun sig => eqv env x sig.range := by rw [hfl]; simp
        exact (List.mem_filter.1 h0).1
      obtain ⟨e1, he1⟩ := legal_elab f g args hc.2 a ha
      obtain ⟨e2, he2⟩ := legal_elab f g args hc.2 b hb
      have hab := hr _ _ _ _ _ _ he1 he2
      have hnd : (a :: b :: l).Nodup := by
        rw [← hfl]
        refine List.Pairwise.filter _ ?_
        rw [possOps]
        cases possArgs env args with
        | none => exact List.Pairwise.nil
        | some as => exact List.Pairwise.filter _ hn
      rw [hab] at hnd
      simp at hnd

/-! ### What is missed -/

/-- Whatever operators can be meant below the operator of the whole term: nothing is said of it. -/
theorem C132_inner_ambiguity (g b c : Nat) (u : T) (hg : env.ops g = [⟨[b], c⟩]) (hs : env.std g = .no)
    (hw : WF env u) (hm : mem env b (poss env u) = true) : check env (.app g 0 (.cons u .nil)) = [] := by
  obtain ⟨x, hx, hbx⟩ := (mem_iff _ _).1 hm
  have hpa : possArgs env (.cons u .nil) = some [poss env u] := possArgs_cons hx (by rw [possArgs])
  have hleg : legal env g 0 [poss env u] = [⟨[b], c⟩] := by
    unfold legal
    rw [hg]
    simp [domainMatches, hm]
  have hp : poss env (.app g 0 (.cons u .nil)) = [c] := by
    rw [poss, hpa]
    simp [hleg, standards_no g _ hs, insAll, ins, mem]
  have hw' : WF env (.app g 0 (.cons u .nil)) := ⟨hw, trivial⟩
  unfold check own
  rw [inner_nil _ hw' (by rw [hp]; simp)]
  simp only [hp, List.nil_append]
  rw [assign]
  have he : eqv env c c = true := (eqv_iff _ _).2 rfl
  simp only [possOps, hpa, hleg, List.filter_cons, he, if_true, List.filter_nil, Ts.empty, Bool.false_eq_true, if_false]

/-- A comparison with a term of several sorts on the left is reported whatever is on the right. -/
theorem C132_left_side (f : Nat) (a b : T) (hs : env.std f = .compare) (ho : env.ops f = [])
    (h : 2 ≤ (poss env a).length) (hb : poss env b ≠ []) :
    Msg.undeclared f ∈ check env (.app f 0 (.cons a (.cons b .nil))) := by
  have ha : ∃ x y l, poss env a = x :: y :: l := by
    match hp : poss env a, h with
    | x :: y :: l, _ => exact ⟨x, y, l, rfl⟩
  obtain ⟨x, y, l, ha⟩ := ha
  obtain ⟨z, hz⟩ := List.exists_mem_of_ne_nil _ hb
  have hpa : possArgs env (.cons a (.cons b .nil)) = some [poss env a, poss env b] :=
    possArgs_cons (x := x) (by rw [ha]; simp) (possArgs_cons hz (by rw [possArgs]))
  have hst : standards env f [poss env a, poss env b] = [] := by
    unfold standards
    rw [hs, ha]
  have hp : poss env (.app f 0 (.cons a (.cons b .nil))) = [] := by
    rw [poss, hpa]
    simp [legal, ho, hst, insAll]
  unfold check own
  rw [hp]
  apply List.mem_append_right
  rw [errs, hpa, hp]
  simp [inner]

/-- With the sides exchanged it is accepted if the sorts fit, whatever sort is given for the whole after a colon. -/
theorem C132_right_side (f g : Nat) (a : T) (x : Nat) (l : Bool) (hs : env.std f = .compare) (ho : env.ops f = [])
    (hw : WF env a) (hm : mem env x (poss env a) = true) :
    check env (.app f g (.cons (.leaf l 0 [x]) (.cons a .nil))) = [] := by
  obtain ⟨z, hz, hxz⟩ := (mem_iff _ _).1 hm
  have hpl : poss env (.leaf l 0 [x]) = [x] := by rw [poss]
  have hpa : possArgs env (.cons (.leaf l 0 [x]) (.cons a .nil)) = some [[x], poss env a] := by
    have := possArgs_cons (env := env) (t := .leaf l 0 [x]) (x := x) (by rw [hpl]; simp)
      (possArgs_cons hz (ts := .nil) (by rw [possArgs]))
    rw [this, hpl]
  have hst : ∀ s ∈ standards env f [[x], poss env a], s = env.bool := by
    intro s h
    unfold standards at h
    rw [hs] at h
    obtain ⟨y, -, rfl⟩ := List.mem_map.1 h
    rfl
  have hst2 : env.bool ∈ standards env f [[x], poss env a] := by
    unfold standards
    rw [hs]
    exact List.mem_map.2 ⟨z, List.mem_filter.2 ⟨hz, (eqv_iff _ _).2 hxz⟩, rfl⟩
  set t : T := .app f g (.cons (.leaf l 0 [x]) (.cons a .nil)) with ht
  have hwt : WF env t := ⟨⟨by simp, by simp⟩, hw, trivial⟩
  have hpt : poss env t = insAll env [] (insAll env [] (standards env f [[x], poss env a])) := by
    rw [ht, poss, hpa]
    simp [legal, ho, insAll]
  have hmem : ∃ y ∈ poss env t, Same env env.bool y := by
    rw [hpt]
    exact insAll_sup _ _ _ (Or.inr (insAll_sup _ _ _ (Or.inr ⟨_, hst2, rfl⟩)))
  have hall : ∀ y ∈ poss env t, y = env.bool := by
    intro y hy
    rw [hpt] at hy
    rcases insAll_sub y _ _ hy with h | h
    · cases h
    · rcases insAll_sub y _ _ h with h | h
      · cases h
      · exact hst y h
  obtain ⟨y, hy, -⟩ := hmem
  have hp : poss env t = [y] := by
    apply one_of _ (poss_nodup t hwt) _ y hy
    intro p hp q hq
    rw [hall p hp, hall q hq]
    rfl
  unfold check own
  rw [inner_nil t hwt (by rw [hp]; simp)]
  simp only [hp, List.nil_append]
  rw [ht, assign, ← ht]
  simp [possOps, ht, hpa, legal, ho]
  rw [← ht, hp]
  rfl

/-- A sort after a colon does not help for a name with several sorts, though there is one reading only. -/
theorem C132_given_ignored (g x y : Nat) (l : List Nat) (hg : g ≠ 0) :
    check env (.leaf false g (x :: y :: l)) = [.many] ∧ OneSort env (.leaf false g (x :: y :: l)) := by
  refine ⟨by simp [check, inner, own, poss, isLit], ?_⟩
  rintro s s' ⟨e, a, he, hs⟩ ⟨e', b, he', hs'⟩
  cases he with
  | leaf _ h1 =>
    cases he' with
    | leaf _ h2 =>
      rcases h1 with h1 | h1
      · exact absurd h1 hg
      rcases h2 with h2 | h2
      · exact absurd h2 hg
      exact (hs.symm.trans h1).trans (h2.symm.trans hs')

/-- A literal with several sorts is accepted as a predicate, whether one of them is bool or not. -/
theorem C132_literal_predicate (g x y : Nat) (l : List Nat) : predicate env (.leaf true g (x :: y :: l)) = [] := by
  simp [predicate, check, inner, own, poss, isLit, sortOf]

/-- A term is accepted exactly if it has one reading. -/
def C132_full : Prop := ∀ (env : Env) (t : T), Lawful env → WF env t → (∀ f, (env.ops f).Nodup) →
  (check env t = [] ↔ ∃! e, ∃ s, Elab env t e s)

/-- Sorts 1 (int), 2 (double), 3 (bool), 4 and 5; operator 0 is `=`, 1 is declared twice, 2 takes a 4. -/
def exEnv : Env where
  under := id
  bool := 3
  int := 1
  ops := fun f => match f with
    | 1 => [⟨[1], 4⟩, ⟨[2], 4⟩]
    | 2 => [⟨[4], 5⟩]
    | _ => []
  std := fun f => if f = 0 then .compare else .no
  stateVal := fun _ => none
  derefVal := fun _ => none
  isObj := fun _ => false
  isSized := fun _ => false
  isIndexed := fun _ => false

theorem exEnv_lawful : Lawful exEnv :=
  ⟨fun _ _ _ => rfl, fun _ _ _ => rfl, fun _ _ _ => rfl, fun _ _ _ => rfl, fun _ _ _ => rfl⟩

/-- The literal 7, an int or a double. -/
def seven : T := .leaf true 0 [1, 2]

theorem C132_full_is_false : ¬ C132_full := by
  intro h
  have hn : ∀ f, (exEnv.ops f).Nodup := by
    intro f
    match f with
    | 0 => simp [exEnv]
    | 1 => simp [exEnv]
    | 2 => simp [exEnv]
    | n + 3 => simp [exEnv]
  have h1 := h exEnv (.app 2 0 (.cons (.app 1 0 (.cons seven .nil)) .nil)) exEnv_lawful
    ⟨⟨⟨by simp, by simp [Same, exEnv]⟩, trivial⟩, trivial⟩ hn
  obtain ⟨e, -, hu⟩ := h1.1 (by decide)
  have r : ∀ k, k = 1 ∨ k = 2 → ∃ s, Elab exEnv (.app 2 0 (.cons (.app 1 0 (.cons seven .nil)) .nil))
      (.op ⟨[4], 5⟩ (.cons (.op ⟨[k], 4⟩ (.cons (.leaf k) .nil)) .nil)) s := by
    intro k hk
    refine ⟨5, ?_⟩
    have hleaf : Elab exEnv seven (.leaf k) k := .leaf (by rcases hk with rfl | rfl <;> simp) (Or.inl rfl)
    have hmid : Elab exEnv (.app 1 0 (.cons seven .nil)) (.op ⟨[k], 4⟩ (.cons (.leaf k) .nil)) 4 :=
      .op (sig := ⟨[k], 4⟩) (by rcases hk with rfl | rfl <;> simp [exEnv]) (Or.inl rfl) (.cons hleaf .nil)
        (.cons rfl .nil)
    exact .op (sig := ⟨[4], 5⟩) (by simp [exEnv]) (Or.inl rfl) (.cons hmid .nil) (.cons rfl .nil)
  have e1 := hu _ (r 1 (Or.inl rfl))
  have e2 := hu _ (r 2 (Or.inr rfl))
  rw [← e2] at e1
  simp at e1

/-! ### Examples -/

/-- `x = 7` is accepted, `7 = x` is not; `f(7)` is ambiguous, `g(f(7))` is accepted. -/
example : check exEnv (.app 0 0 (.cons (.leaf false 0 [1]) (.cons seven .nil))) = [] ∧
    check exEnv (.app 0 0 (.cons seven (.cons (.leaf false 0 [1]) .nil))) = [.undeclared 0] ∧
    check exEnv (.app 1 0 (.cons seven .nil)) = [.ambiguous 1] ∧
    check exEnv (.app 2 0 (.cons (.app 1 0 (.cons seven .nil)) .nil)) = [] ∧
    predicate exEnv (.app 2 0 (.cons (.app 1 0 (.cons seven .nil)) .nil)) = [.notBool] := by decide

/-- The hypotheses of `C132_accepted_exactly` hold for `g(f(x))`. -/
example : WFs exEnv (.cons (.app 1 0 (.cons (.leaf false 0 [1]) .nil)) .nil) ∧
    Clean exEnv (.app 2 0 (.cons (.app 1 0 (.cons (.leaf false 0 [1]) .nil)) .nil)) ∧
    Fine exEnv (.app 2 0 (.cons (.app 1 0 (.cons (.leaf false 0 [1]) .nil)) .nil)) ∧
    check exEnv (.app 2 0 (.cons (.app 1 0 (.cons (.leaf false 0 [1]) .nil)) .nil)) = [] := by
  refine ⟨⟨⟨⟨by simp, by simp⟩, trivial⟩, trivial⟩, ⟨Or.inr rfl, ⟨Or.inr rfl, rfl, trivial⟩, trivial⟩, ?_, by decide⟩
  exact ⟨trivial, ⟨trivial, trivial, trivial⟩, trivial⟩

end SortCheck
end Splint
