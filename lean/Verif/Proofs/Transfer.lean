import Verif.Spec.Transfer
import Verif.Tactics
namespace Splint.Transfer
open Spec

/-! ## Messages are only added -/

/-- Messages were added, none of them about null pointers. -/
def Ext (s s' : St) : Prop := ∃ l, s'.out = s.out ++ l ∧ ∀ m ∈ l, ofNull m = false

theorem Ext.refl (s : St) : Ext s s := ⟨[], by simp, by simp⟩
theorem Ext.trans {a b c : St} (h : Ext a b) (h' : Ext b c) : Ext a c := by
  obtain ⟨l, h1, h2⟩ := h
  obtain ⟨k, h3, h4⟩ := h'
  refine ⟨l ++ k, by rw [h3, h1, List.append_assoc], ?_⟩
  intro m hm
  rcases List.mem_append.1 hm with h | h
  · exact h2 m h
  · exact h4 m h

theorem ext_snoc (s : St) (m : Msg) (hm : ofNull m = false) : Ext s { s with out := s.out ++ [m] } :=
  ⟨[m], rfl, by simpa using hm⟩

theorem Ext.reported {s s' : St} (h : Ext s s') (r : Reported s) : Reported s' := by
  obtain ⟨m, hm, hn⟩ := r
  obtain ⟨l, h1, -⟩ := h
  exact ⟨m, by rw [h1]; exact List.mem_append_left _ hm, hn⟩

theorem ext_modF (g : Ref → Ref) (s : St) : Ext s (s.modF g) := Ext.refl s
theorem ext_modT (g : Ref → Ref) (s : St) : Ext s (s.modT g) := Ext.refl s
theorem ext_modFIf (c : Bool) (g : Ref → Ref) (s : St) : Ext s (s.modFIf c g) := by
  unfold St.modFIf; split <;> exact Ext.refl _
theorem ext_modTIf (c : Bool) (g : Ref → Ref) (s : St) : Ext s (s.modTIf c g) := by
  unfold St.modTIf; split <;> exact Ext.refl _
theorem ext_say (e : Fact) (m : Msg) (s : St) (hm : ofNull m = false) : Ext s (s.say e m) := by
  unfold St.say; split
  · exact ext_snoc s m hm
  · exact Ext.refl _
theorem ext_sayThen (e : Fact) (m : Msg) (k : St → St) (hm : ofNull m = false) (hk : ∀ x, Ext x (k x)) (s : St) :
    Ext s (s.sayThen e m k) := by
  unfold St.sayThen; split
  · exact Ext.trans (ext_snoc s m hm) (hk _)
  · exact Ext.refl _

macro "ext_leaf" : tactic => `(tactic| first
  | exact Ext.refl _ | exact ext_modF _ _ | exact ext_modT _ _ | exact ext_modFIf _ _ _ | exact ext_modTIf _ _ _
  | exact ext_say _ _ _ rfl
  | exact ext_sayThen _ _ _ rfl (fun _ => ext_modF _ _) _
  | exact ext_sayThen _ _ _ rfl (fun _ => ext_modT _ _) _
  | exact ext_sayThen _ _ _ rfl (fun _ => ext_modFIf _ _ _) _
  | exact ext_sayThen _ _ _ rfl (fun _ => ext_modTIf _ _ _) _
  | exact Ext.trans (ext_say _ _ _ rfl) (ext_modF _ _)
  | exact Ext.trans (ext_say _ _ _ rfl) (ext_modFIf _ _ _)
  | exact Ext.trans (ext_say _ _ _ rfl) (ext_modTIf _ _ _)
  | exact Ext.trans (ext_modTIf _ _ _) (ext_modFIf _ _ _)
  | exact Ext.trans (ext_modFIf _ _ _) (ext_say _ _ _ rfl)
  | exact Ext.trans (ext_snoc _ _ rfl) (ext_modTIf _ _ _)
  | exact Ext.trans (ext_snoc _ _ rfl) (ext_modT _ _)
  | exact ext_snoc _ _ rfl)

theorem ext_checkLost (e : Fact) (s : St) : Ext s (checkLost e s) := by
  unfold checkLost
  simp only
  repeat' split
  all_goals ext_leaf

theorem ext_assignCounted (e : Fact) (s : St) : Ext s (assignCounted e s) := by
  unfold assignCounted
  simp only
  repeat' split
  all_goals first | ext_leaf | exact Ext.trans (ext_modT _ _) (ext_say _ _ _ rfl)

theorem ext_assignState (e : Fact) (s : St) : Ext s (assignState e s) :=
  Ext.trans (ext_modT _ _) (Ext.trans (ext_assignCounted e _)
    (Ext.trans (ext_modTIf _ _ _) (ext_modTIf _ _ _)))

theorem ext_checkAssign (e : Fact) (s : St) : Ext s (checkAssign e s) := by
  unfold checkAssign
  split
  · exact ext_modT _ _
  · exact Ext.trans (ext_checkLost e s) (ext_assignState e _)

theorem ext_checkDefined (e : Fact) (s : St) : Ext s (checkDefined e s) := by
  unfold checkDefined
  simp only
  split <;> ext_leaf

theorem ext_checkExposure (e : Fact) (s : St) : Ext s (checkExposure e s) := by
  unfold checkExposure
  simp only
  repeat' split
  all_goals first
    | ext_leaf

theorem ext_checkOnly (e : Fact) (s : St) : Ext s (checkOnly e s) := by
  unfold checkOnly
  simp only
  repeat' split
  all_goals ext_leaf

theorem ext_checkOwned (e : Fact) (s : St) : Ext s (checkOwned e s) := by
  unfold checkOwned
  simp only
  repeat' split
  all_goals ext_leaf

theorem ext_freshReturn (e : Fact) (s : St) : Ext s (freshReturn e s) := by
  unfold freshReturn
  simp only
  repeat' split
  all_goals ext_leaf

theorem ext_freshGive (e : Fact) (k : AlKind) (s : St) : Ext s (freshGive e k s) := by
  unfold freshGive
  repeat' split
  all_goals ext_leaf

theorem ext_checkFresh (e : Fact) (s : St) : Ext s (checkFresh e s) :=
  Ext.trans (ext_freshReturn e s) (ext_freshGive e _ _)

theorem ext_checkDependent (e : Fact) (s : St) : Ext s (checkDependent e s) := by
  unfold checkDependent
  simp only
  repeat' split
  all_goals ext_leaf

theorem ext_checkShared (e : Fact) (s : St) : Ext s (checkShared e s) := by
  unfold checkShared
  simp only
  repeat' split
  all_goals ext_leaf

theorem ext_checkKeep (e : Fact) (s : St) : Ext s (checkKeep e s) := by
  unfold checkKeep
  simp only
  repeat' split
  all_goals ext_leaf

theorem ext_checkTemp (e : Fact) (s : St) : Ext s (checkTemp e s) := by
  unfold checkTemp
  simp only
  repeat' split
  all_goals ext_leaf

theorem ext_checkCounted (e : Fact) (s : St) : Ext s (checkCounted e s) := by
  unfold checkCounted
  simp only
  repeat' split
  all_goals ext_leaf

theorem ext_byKind (e : Fact) (s : St) : Ext s (byKind e s) := by
  unfold byKind
  split
  all_goals first
    | exact ext_checkOnly e s | exact ext_checkFresh e s | exact ext_checkOwned e s | exact ext_checkDependent e s
    | exact ext_checkShared e s | exact ext_checkKeep e s | exact ext_checkTemp e s | exact ext_checkCounted e s
    | exact Ext.refl s

theorem ext_byReceiver (e : Fact) (fk tk : AlKind) (s : St) : Ext s (byReceiver e fk tk s) := by
  unfold byReceiver giveOnly
  simp only
  repeat' split
  all_goals first
    | ext_leaf
    | exact Ext.trans (Ext.trans (ext_say _ _ _ rfl) (ext_modF _ _)) (ext_modFIf _ _ _)

/-- `checkTransferAux` adds the message about null pointers, if any, and then others. -/
theorem ext_checkAux' (e : Fact) (s : St) :
    Ext (if !e.ffix && !e.tfix then checkNull e s else s) (checkAux e s) := by
  unfold checkAux
  simp only
  refine Ext.trans ?_ (ext_byReceiver e _ _ _)
  refine Ext.trans ?_ (ext_byKind e _)
  refine Ext.trans ?_ (ext_checkExposure e _)
  refine Ext.trans ?_ (ext_checkDefined e _)
  generalize (if (!e.ffix && !e.tfix) = true then checkNull e s else s) = s1
  split
  · exact ext_checkAssign e _
  · exact Ext.refl _

theorem checkNull_shape (e : Fact) (s : St) :
    ∃ l, (∀ m ∈ l, ofNull m = true) ∧ checkNull e s = { s with out := s.out ++ l } := by
  unfold checkNull
  simp only [St.say]
  split_ifs
  all_goals first
    | (refine ⟨[], ?_, ?_⟩ <;> simp <;> done)
    | (refine ⟨[_], ?_, rfl⟩; simp [ofNull])

theorem checkAux_reported (e : Fact) (s : St) (h : Reported s) : Reported (checkAux e s) := by
  refine Ext.reported (ext_checkAux' e s) ?_
  split
  · obtain ⟨l, -, h'⟩ := checkNull_shape e s
    rw [h']
    obtain ⟨m, hm, hn⟩ := h
    exact ⟨m, List.mem_append_left _ hm, hn⟩
  · exact h

/-! ## Storage that is not the source's to give -/

/-- What is left of a transfer after null pointers, assignment and definition are dealt with. -/
def core (e : Fact) (s : St) : St := byReceiver e s.f.al s.t.al (byKind e s)

theorem reported_nil {f t : Ref} {l : List Msg} (hl : ∀ m ∈ l, ofNull m = true) : ¬ Reported ⟨f, t, l⟩ := by
  rintro ⟨m, hm, h⟩
  rw [hl m hm] at h
  cases h

theorem reported_snoc (f t : Ref) (l : List Msg) (m : Msg) (h : ofNull m = false) : Reported ⟨f, t, l ++ [m]⟩ :=
  ⟨m, by simp, h⟩

theorem pass_core (e : Fact) (f t : Ref) (l : List Msg) (hp : Plain e) (ht : e.tt = .fcnPass) (hf : Proper e f)
    (hl : ∀ m ∈ l, ofNull m = true) (hb : Borrowed f.al) (hk : Takes t.al) :
    ¬ Reported (core e ⟨f, t, l⟩) ↔
    (¬ (f.isAddress = true ∧ t.al ≠ .owned) ∧
  (f.al = .unique ∨ f.al = .stack ∨ f.al = .refs ∨ f.al = .returned ∨ f.al = .local_
    ∨ f.al = .shared ∧ (t.al = .keep ∨ t.al = .owned)
    ∨ (f.al = .unknown ∨ f.al = .static) ∧ t.al = .owned
    ∨ (f.al = .dependent ∨ f.al = .impDependent) ∧ (f.isLocal = true ∧ e.depLocal = true ∨ e.canLoseLocalF = true))) := by
  obtain ⟨on, st, ff, tf⟩ := hp
  obtain ⟨n1, n2, n3, n4, n5⟩ := hf
  obtain ⟨b1, b2⟩ := hb
  have rep0 : ∀ (x y : Ref), (Reported ⟨x, y, l⟩ ↔ False) := fun x y => iff_false_intro (reported_nil hl)
  have rep : ∀ (x y : Ref) (m : Msg), ofNull m = false → (Reported ⟨x, y, l ++ [m]⟩ ↔ True) :=
    fun x y m hm => iff_true_intro (reported_snoc _ _ _ _ hm)
  have rep2 : ∀ (x y : Ref) (m n : Msg), ofNull m = false → (Reported ⟨x, y, l ++ [m, n]⟩ ↔ True) :=
    fun x y m n hm => iff_true_intro ⟨m, by simp, hm⟩
  unfold core byKind
  cases hta : t.al <;> simp only [hta, Takes] at hk <;> cases hfa : f.al <;> simp [hfa, MayGive] at b1 b2 <;>
   cases had : f.isAddress <;>
    simp [byReceiver, giveOnly, checkDependent, checkShared, checkTemp,
      checkCounted, St.say, on, ht, isOnly, isTemp, isDependent, St.modF, St.modT,
      St.modFIf, St.modTIf, Ref.setAl, n1, n2, n3, st, ff, tf, rep, rep0, rep2, ofNull, hfa, hta, had] <;>
    first
      | exact reported_snoc _ _ _ _ rfl
      | (refine ⟨Msg.immediateTrans, ?_, rfl⟩; simp; done)
      | (cases h1 : f.isLocal <;> cases h2 : e.depLocal <;> cases h3 : e.canLoseLocalF <;>
          simp [h1, h2, h3, Ref.kill, hfa, n5, had, rep0] <;>
          first
            | exact reported_snoc _ _ _ _ rfl
            | (refine ⟨Msg.immediateTrans, ?_, rfl⟩; simp; done))


theorem pass_exposure (e : Fact) (s : St) (on : ∀ m, e.on m = true) (ht : e.tt = .fcnPass) (n4 : s.f.isMutable = true)
    (hk : Takes s.t.al) :
    (s.f.ex = .unknown ∨ s.f.ex = .normal ∨ s.t.ex = .exposed ∨ s.t.ex = .observer) ∧ checkExposure e s = s
    ∨ ¬ (s.f.ex = .unknown ∨ s.f.ex = .normal ∨ s.t.ex = .exposed ∨ s.t.ex = .observer) ∧ Reported (checkExposure e s) := by
  cases hta : s.t.al <;> simp only [hta, Takes] at hk <;> cases hfe : s.f.ex <;> cases hte : s.t.ex <;>
    simp [checkExposure, Ref.observer, Ref.exposed, Ref.shown, hfe, hte, hta, n4, ht, St.modTIf, isTemp, isDependent,
      St.sayThen, on] <;>
    exact reported_snoc _ _ _ _ rfl

theorem pass_exactly (e : Fact) (s : St) (hp : Plain e) (ht : e.tt = .fcnPass) (hf : Proper e s.f)
    (h0 : s.out = []) (hb : Borrowed s.f.al) (hk : Takes s.t.al) :
    ¬ Reported (checkAux e s) ↔ Missed e s.f s.t := by
  obtain ⟨f, t, out⟩ := s
  simp only at *
  subst h0
  obtain ⟨l, hl, hn⟩ := checkNull_shape e ⟨f, t, []⟩
  simp only [List.nil_append] at hn
  have hd : ∀ m, checkDefined e ⟨f, t, m⟩ = ⟨f, t, m⟩ := by
    intro m
    simp [checkDefined, ht, hp.ffix, hp.tfix, St.modTIf]
  have hx : checkAux e ⟨f, t, []⟩ = core e (checkExposure e ⟨f, t, l⟩) := by
    unfold checkAux core
    simp only [hp.ffix, hp.tfix, Bool.not_false, Bool.and_self, if_true, hn, ht, reduceCtorEq, if_false, hd]
  rw [hx]
  rcases pass_exposure e ⟨f, t, l⟩ hp.on ht hf.isMutable hk with ⟨h1, h2⟩ | ⟨h1, h2⟩
  · rw [h2, pass_core e f t l hp ht hf hl hb hk]
    unfold Missed
    exact ⟨fun h => ⟨h1, h⟩, fun h => h.2⟩
  · constructor
    · intro h
      exact absurd (Ext.reported (Ext.trans (ext_byKind e _) (ext_byReceiver e _ _ _)) h2) h
    · intro h
      exact absurd h.1 h1

/-! ## Storage that is lent -/

/-- What byKind needs to know about the references. -/
structure Ready (e : Fact) (s : St) (fk tk : AlKind) : Prop where
  f : s.f.al = fk
  t : s.t.al = tk
  notConst : s.f.isConst = false
  refers : e.tt = .doAssign ∨ e.tt = .fieldAssign → s.t.isReference = true ∧ s.t.isLocal = false

theorem lent_byKind (e : Fact) (s : St) (fk tk : AlKind) (h : Ready e s fk tk) (on : ∀ m, e.on m = true)
    (st : e.strictReleased = true) (n2 : e.nullValue = false) (n3 : e.expMutable = true) (hr : fk = .killRef → e.tt = .fcnPass ∨ e.tt = .fcnReturn)
    (hk : Takes tk) (hl : Lent fk tk) : Reported (byKind e s) := by
  obtain ⟨h1, h2, h3, h4⟩ := h
  have key : ∀ m, ofNull m = false → Reported (s.say e m) := by
    intro m hm
    unfold St.say
    rw [if_pos (on m)]
    exact reported_snoc _ _ _ _ hm
  unfold byKind
  rw [h1]
  cases fk <;> simp only [Lent] at hl <;> cases tk <;> simp only [Takes] at hk <;> cases htt : e.tt <;>
    simp [htt] at h4 hl hr <;>
    simp [checkTemp, checkCounted, checkShared, h1, h2, h4, isOnly, isTemp, isDependent, n2, n3, st, htt] <;>
    exact key _ rfl

theorem exposure_same (e : Fact) (s : St) (on : ∀ m, e.on m = true) (hk : Takes s.t.al) :
    Reported (checkExposure e s) ∨ ((checkExposure e s).f = s.f ∧
      ∃ x, (checkExposure e s).t = { s.t with ex := x }) := by
  have h1 : s.t.al ≠ .local_ := by intro h; rw [h] at hk; exact hk
  have h2 : s.t.al ≠ .error := by intro h; rw [h] at hk; exact hk
  have key : ∀ m, ofNull m = false → Reported (s.say e m) := by
    intro m hm
    unfold St.say
    rw [if_pos (on m)]
    exact reported_snoc _ _ _ _ hm
  have key2 : ∀ m k, ofNull m = false → (∀ x, Ext x (k x)) → Reported (s.sayThen e m k) := by
    intro m k hm hk
    unfold St.sayThen
    rw [if_pos (on m)]
    exact Ext.reported (hk _) (reported_snoc _ _ _ _ hm)
  unfold checkExposure
  simp only [h1, h2, ne_eq, not_false_eq_true, decide_false, Bool.or_false, Bool.and_false, Bool.false_and, if_true]
  repeat' split
  all_goals first
    | exact Or.inr ⟨rfl, s.t.ex, rfl⟩
    | exact Or.inl (key _ rfl)
    | exact Or.inl (key2 _ _ rfl fun _ => ext_modF _ _)
    | exact Or.inl (key2 _ _ rfl fun _ => ext_modTIf _ _ _)
    | exact Or.inl (Ext.reported (ext_modF _ _) (key _ rfl))
    | exact Or.inl (Ext.reported (ext_modTIf _ _ _) (key _ rfl))
    | exact Or.inl (Ext.reported (ext_modTIf _ _ _) (reported_snoc _ _ _ _ rfl))
    | (right
       unfold St.modTIf
       split
       · exact ⟨rfl, _, rfl⟩
       · exact ⟨rfl, s.t.ex, rfl⟩)

theorem checkNull_same (e : Fact) (s : St) : (checkNull e s).f = s.f ∧ (checkNull e s).t = s.t := by
  obtain ⟨l, -, h⟩ := checkNull_shape e s
  rw [h]
  exact ⟨rfl, rfl⟩

theorem checkDefined_same (e : Fact) (s : St) :
    (checkDefined e s).f = s.f ∧ ∃ d, (checkDefined e s).t = { s.t with defst := d } := by
  unfold checkDefined
  simp only
  split
  · unfold St.modTIf
    split
    · exact ⟨rfl, _, rfl⟩
    · exact ⟨rfl, s.t.defst, rfl⟩
  · exact ⟨rfl, s.t.defst, rfl⟩

/-- Calls and returns. -/
theorem lent_aux (e : Fact) (s : St) (ht : e.tt = .fcnPass ∨ e.tt = .fcnReturn) (on : ∀ m, e.on m = true)
    (st : e.strictReleased = true) (n2 : e.nullValue = false) (n3 : e.expMutable = true) (hc : s.f.isConst = false)
    (hk : Takes s.t.al) (hl : Lent s.f.al s.t.al) : Reported (checkAux e s) := by
  have hna : e.tt ≠ .doAssign := by rcases ht with h | h <;> rw [h] <;> simp
  have hnf : e.tt ≠ .fieldAssign := by rcases ht with h | h <;> rw [h] <;> simp
  unfold checkAux
  simp only [hna, if_false]
  have h1 : ∃ s1, (if (!e.ffix && !e.tfix) = true then checkNull e s else s) = s1 ∧ s1.f = s.f ∧ s1.t = s.t := by
    split
    · exact ⟨_, rfl, checkNull_same e s⟩
    · exact ⟨_, rfl, rfl, rfl⟩
  obtain ⟨s1, h1, h1f, h1t⟩ := h1
  rw [h1]
  obtain ⟨h2f, d, h2t⟩ := checkDefined_same e s1
  generalize checkDefined e s1 = s2 at *
  have hk2 : Takes s2.t.al := by rw [h2t, h1t]; exact hk
  refine Ext.reported (ext_byReceiver e _ _ _) ?_
  rcases exposure_same e s2 on hk2 with h | ⟨hf, x, htt⟩
  · exact Ext.reported (ext_byKind e _) h
  · refine lent_byKind e _ s.f.al s.t.al ⟨?_, ?_, ?_, ?_⟩ on st n2 n3 (fun _ => ht) hk hl
    · rw [hf, h2f, h1f]
    · rw [htt, h2t, h1t]
    · rw [hf, h2f, h1f]; exact hc
    · rintro (h | h)
      · exact absurd h hna
      · exact absurd h hnf

/-- Assignments. -/
theorem lent_assign (e : Fact) (s : St) (ht : e.tt = .doAssign) (on : ∀ m, e.on m = true)
    (st : e.strictReleased = true) (n2 : e.nullValue = false) (n3 : e.expMutable = true) (hc : s.f.isConst = false)
    (hn : e.sameName = false) (hr : s.t.isReference = true ∧ s.t.isLocal = false) (ho : s.t.oal = s.t.al) (hkr : s.f.al ≠ .killRef)
    (hns : s.t.nsLocal = false)
    (hk : Takes s.t.al) (hl : Lent s.f.al s.t.al) : Reported (checkAux e s) := by
  unfold checkAux
  simp only [ht, if_true]
  have h1 : ∃ s1, (if (!e.ffix && !e.tfix) = true then checkNull e s else s) = s1 ∧ s1.f = s.f ∧ s1.t = s.t := by
    split
    · exact ⟨_, rfl, checkNull_same e s⟩
    · exact ⟨_, rfl, rfl, rfl⟩
  obtain ⟨s1, h1, h1f, h1t⟩ := h1
  rw [h1]
  have h3 : (checkAssign e s1).f = s.f ∧ ∃ x, (checkAssign e s1).t = { s.t with ex := x } := by
    unfold checkAssign
    rw [hn]
    simp only [Bool.false_eq_true, if_false]
    have hlost : (checkLost e s1).f = s.f ∧ (checkLost e s1).t = s.t := by
      have hnr : s1.t.al ≠ .newRef := by rw [h1t]; intro h; rw [h] at hk; exact hk
      unfold checkLost St.say
      simp only [hnr, if_false]
      repeat' split
      all_goals exact ⟨h1f, h1t⟩
    generalize checkLost e s1 = s2 at *
    obtain ⟨a, b⟩ := hlost
    have hstack : s.f.al ≠ .stack := by intro h; rw [h] at hl; exact hl
    have hrc : s.t.al ≠ .refCounted := by intro h; rw [h] at hk; exact hk
    have hrs : s.t.al ≠ .refs := by intro h; rw [h] at hk; exact hk
    have hkl : s.t.al ≠ .killRef := by intro h; rw [h] at hk; exact hk
    have hreset : s.t.reset = { s.t with ex := s.t.oex } := by
      unfold Ref.reset
      simp only [ho, hkl, hrc, hrs, decide_false, Bool.false_and, Bool.false_eq_true, if_false, ne_eq, not_false_eq_true,
        decide_true, Bool.and_self, if_true]
    unfold assignState assignFresh assignStack assignCounted
    simp [St.modTIf, St.modT, a, b, hreset, hrc, hstack, hns]
  obtain ⟨h3f, x, h3t⟩ := h3
  generalize checkAssign e s1 = s3 at *
  obtain ⟨h2f, d, h2t⟩ := checkDefined_same e s3
  generalize checkDefined e s3 = s2 at *
  have hk2 : Takes s2.t.al := by rw [h2t, h3t]; exact hk
  refine Ext.reported (ext_byReceiver e _ _ _) ?_
  rcases exposure_same e s2 on hk2 with h | ⟨hf, x, htt⟩
  · exact Ext.reported (ext_byKind e _) h
  · refine lent_byKind e _ s.f.al s.t.al ⟨?_, ?_, ?_, ?_⟩ on st n2 n3 (fun h => absurd h hkr) hk hl
    · rw [hf, h2f, h3f]
    · rw [htt, h2t, h3t]
    · rw [hf, h2f, h3f]; exact hc
    · intro _
      rw [htt, h2t, h3t]
      exact hr

/-! ## What a call does to the references -/

/-- Everything but the kind, the exposure and the definedness of a reference stays. -/
structure SameFacts (a b : Ref) : Prop where
  isConst : a.isConst = b.isConst
  unknownFetch : a.unknownFetch = b.unknownFetch
  isLocal : a.isLocal = b.isLocal
  oal : a.oal = b.oal

/-- Given away: dead, or perhaps dead for an unknown element of an array. -/
def Gone (r : Ref) : Prop := r.defst = .dead ∨ r.unknownFetch = true ∧ r.defst = .hoffa

theorem modFIf_t (c : Bool) (g : Ref → Ref) (s : St) : (s.modFIf c g).t = s.t := by
  unfold St.modFIf; split <;> rfl
theorem say_t (e : Fact) (m : Msg) (s : St) : (s.say e m).t = s.t := by unfold St.say; split <;> rfl
theorem say_f (e : Fact) (m : Msg) (s : St) : (s.say e m).f = s.f := by unfold St.say; split <;> rfl
theorem modFIf_f (c : Bool) (g : Ref → Ref) (s : St) : (s.modFIf c g).f = if c then g s.f else s.f := by
  unfold St.modFIf; split <;> rfl

theorem pass_expose_t (e : Fact) (s : St) (ht : e.tt = .fcnPass) :
    (checkExposure e s).t = s.t ∧ ((checkExposure e s).f = s.f ∨ (checkExposure e s).f = s.f.setAl .error) := by
  unfold checkExposure St.sayThen St.modTIf
  simp only [ht]
  repeat' split
  all_goals simp_all [St.modF]

theorem pass_byKind (e : Fact) (s : St) (ht : e.tt = .fcnPass) (hk : Takes s.t.al) :
    (byKind e s).t = s.t ∧
    ((byKind e s).f = s.f ∨ (byKind e s).f = s.f.killC ∨ (byKind e s).f = s.f.kill
      ∨ s.f.al ≠ .shared ∧ ((byKind e s).f = s.f.setNC .kept ∨ (byKind e s).f = s.f.setNC .dependent)) := by
  unfold byKind
  cases hta : s.t.al <;> simp only [hta, Takes] at hk <;> split <;> rename_i hfa <;>
    simp only [checkOnly, checkOwned, checkFresh, freshReturn, freshGive, checkDependent, checkShared, checkKeep, checkTemp,
      checkCounted, St.say, St.modFIf, St.modTIf, St.modF, Ref.setC, hta, ht, hfa, isOnly, isTemp, isDependent] <;>
    simp <;>
    (repeat' split) <;> simp_all

/-- A call with a receiver that takes the storage leaves the receiver as it is. -/
theorem pass_t (e : Fact) (s : St) (ht : e.tt = .fcnPass) (hk : Takes s.t.al) : (checkAux e s).t = s.t := by
  unfold checkAux
  simp only [ht, reduceCtorEq, if_false]
  have h1 : ∃ s1, (if (!e.ffix && !e.tfix) = true then checkNull e s else s) = s1 ∧ s1.f = s.f ∧ s1.t = s.t := by
    split
    · exact ⟨_, rfl, checkNull_same e s⟩
    · exact ⟨_, rfl, rfl, rfl⟩
  obtain ⟨s1, h1, h1f, h1t⟩ := h1
  rw [h1]
  have h2 : checkDefined e s1 = s1 := by simp [checkDefined, ht, St.modTIf]
  rw [h2]
  obtain ⟨h3t, -⟩ := pass_expose_t e s1 ht
  generalize checkExposure e s1 = s2 at *
  have hk2 : Takes s2.t.al := by rw [h3t, h1t]; exact hk
  obtain ⟨h4t, -⟩ := pass_byKind e s2 ht hk2
  have h5 : (byReceiver e s2.f.al s2.t.al (byKind e s2)).t = (byKind e s2).t := by
    generalize byKind e s2 = s3
    cases hta : s2.t.al <;> simp only [hta, Takes] at hk2 <;>
      simp [byReceiver, giveOnly, isOnly, ht] <;> (repeat' split) <;> simp [modFIf_t, say_t, St.modF]
  rw [h5, h4t, h3t, h1t]

theorem kill_gone (r : Ref) (hs : r.al ≠ .shared) (hc : r.isConst = false) : Gone r.kill := by
  simp [Gone, Ref.kill, hs, hc]

theorem killC_gone (r : Ref) (hs : r.al ≠ .shared) (hc : r.isConst = false) : Gone r.killC := by
  unfold Ref.killC
  rw [if_neg hs]
  split
  · rename_i h
    exact Or.inr ⟨h, rfl⟩
  · exact kill_gone r hs hc

theorem gone_kill (r : Ref) (h : Gone r) (hc : r.isConst = false) : Gone r.kill := by
  by_cases hs : r.al = .shared
  · simpa [Ref.kill, hs] using h
  · exact kill_gone r hs hc

theorem gone_killC (r : Ref) (h : Gone r) (hc : r.isConst = false) : Gone r.killC := by
  by_cases hs : r.al = .shared
  · simpa [Ref.killC, hs] using h
  · exact killC_gone r hs hc

/-- The source after a call. -/
theorem pass_f (e : Fact) (s : St) (ht : e.tt = .fcnPass) (hk : Takes s.t.al) (hff : e.ffix = false)
    (hc : s.f.isConst = false) (hs : s.f.al ≠ .shared) :
    (isOnly s.t.al → Gone (checkAux e s).f) ∧
    (s.t.al = .keep → (checkAux e s).f.al = .kept ∨ Gone (checkAux e s).f) ∧
    (s.t.al = .owned → (checkAux e s).f.al = .dependent ∨ Gone (checkAux e s).f) := by
  unfold checkAux
  simp only [ht, reduceCtorEq, if_false]
  have h1 : ∃ s1, (if (!e.ffix && !e.tfix) = true then checkNull e s else s) = s1 ∧ s1.f = s.f ∧ s1.t = s.t := by
    split
    · exact ⟨_, rfl, checkNull_same e s⟩
    · exact ⟨_, rfl, rfl, rfl⟩
  obtain ⟨s1, h1, h1f, h1t⟩ := h1
  rw [h1]
  have h2 : checkDefined e s1 = s1 := by simp [checkDefined, ht, St.modTIf]
  rw [h2]
  obtain ⟨h3t, h3f⟩ := pass_expose_t e s1 ht
  generalize checkExposure e s1 = s2 at *
  rw [h1f] at h3f
  rw [h1t] at h3t
  have hk2 : Takes s2.t.al := by rw [h3t]; exact hk
  have hc2 : s2.f.isConst = false := by rcases h3f with h | h <;> rw [h] <;> exact hc
  have hs2 : s2.f.al ≠ .shared := by
    rcases h3f with h | h <;> rw [h]
    · exact hs
    · simp [Ref.setAl]
  obtain ⟨h4t, h4f⟩ := pass_byKind e s2 ht hk2
  -- what byKind leaves is not shared, or gone
  have h5 : (byKind e s2).f.isConst = false ∧ ((byKind e s2).f.al ≠ .shared ∨ Gone (byKind e s2).f) := by
    rcases h4f with h | h | h | ⟨-, h | h⟩ <;> rw [h]
    · exact ⟨hc2, Or.inl hs2⟩
    · refine ⟨?_, Or.inr (killC_gone _ hs2 hc2)⟩
      unfold Ref.killC Ref.maybeKill Ref.kill
      repeat' split
      all_goals exact hc2
    · refine ⟨?_, Or.inr (kill_gone _ hs2 hc2)⟩
      unfold Ref.kill
      repeat' split
      all_goals exact hc2
    · simp [Ref.setNC, hc2]
    · simp [Ref.setNC, hc2]
  clear h4f
  generalize byKind e s2 = s3 at *
  obtain ⟨hc3, h5⟩ := h5
  rw [h3t]
  have hfk : s2.f.al ≠ .shared := hs2
  have good : ∀ r : Ref, (r = s3.f ∨ r = s3.f.setAl .error) →
      Gone r.kill ∧ Gone r.killC ∧ (∀ k, (r.setNC k).al = k) ∧ (∀ k, (r.setC k).al = k ∨ Gone (r.setC k)) := by
    intro r hr
    have hrc : r.isConst = false := by rcases hr with h | h <;> rw [h] <;> exact hc3
    have h5 : r.al ≠ .shared ∨ Gone r := by
      rcases hr with h | h <;> rw [h]
      · exact h5
      · left; simp [Ref.setAl]
    refine ⟨h5.elim (fun h => kill_gone _ h hrc) (fun h => gone_kill _ h hrc),
      h5.elim (fun h => killC_gone _ h hrc) (fun h => gone_killC _ h hrc), ?_, ?_⟩
    · intro k; simp [Ref.setNC, hrc]
    · intro k
      unfold Ref.setC
      split
      · rename_i h
        exact Or.inr (h5.resolve_left (fun h' => h' h))
      · left; simp [Ref.setNC, hrc]
  have hfirst : ∀ tk, ∃ s4 : St, (s4.f = s3.f ∨ s4.f = s3.f.setAl .error) ∧
      giveOnly e s2.f.al tk s3 = (if tk = .keep then s4.modFIf (!e.ffix) (if e.tfix then Ref.setNC .kept else Ref.setC .kept)
        else s4.modFIf (!e.ffix) (if e.tfix then Ref.kill else Ref.killC)) := by
    intro tk
    unfold giveOnly
    simp only [hfk, if_false, ht, reduceCtorEq]
    refine ⟨_, ?_, rfl⟩
    by_cases ha : s3.f.isAddress = true
    · rw [if_pos ha]
      right; simp [St.modF, say_f]
    · rw [if_neg ha]
      split
      · exact Or.inl (say_f _ _ _)
      · exact Or.inl rfl
  have hthird := good s3.f (Or.inl rfl)
  cases hta : s.t.al <;> simp only [hta, Takes] at hk <;> simp [byReceiver, isOnly]
  · obtain ⟨s4, h6, h7⟩ := hfirst .only
    rw [h7]
    simp only [reduceCtorEq, if_false, modFIf_f, hff, Bool.not_false, if_true]
    split
    · exact (good _ h6).1
    · exact (good _ h6).2.1
  · obtain ⟨s4, h6, h7⟩ := hfirst .impOnly
    rw [h7]
    simp only [reduceCtorEq, if_false, modFIf_f, hff, Bool.not_false, if_true]
    split
    · exact (good _ h6).1
    · exact (good _ h6).2.1
  · obtain ⟨s4, h6, h7⟩ := hfirst .keep
    rw [h7]
    simp only [modFIf_f, hff, Bool.not_false, if_true]
    split
    · exact Or.inl ((good _ h6).2.2.1 _)
    · exact (good _ h6).2.2.2 _
  · simp only [hfk, ht, not_false_eq_true, reduceCtorEq, true_or, and_self, if_true, modFIf_f, hff, Bool.not_false]
    split
    · exact Or.inl (hthird.2.2.1 _)
    · exact hthird.2.2.2 _

/-! ## Aliases -/

theorem aliases_t (tt : TT) (htt : tt = .fcnPass) (l : List (Ref × Fact)) (s : St) (hk : Takes s.t.al) :
    (l.foldl (aliasPass tt) s).t = s.t ∧ (l.foldl (aliasPass tt) s).f = s.f ∧ (Reported s → Reported (l.foldl (aliasPass tt) s)) := by
  induction l generalizing s with
  | nil => exact ⟨rfl, rfl, id⟩
  | cons a l ih =>
    have h1 : (aliasPass tt s a).t = s.t := pass_t _ { s with f := a.1 } htt hk
    have h2 : (aliasPass tt s a).f = s.f := rfl
    have h3 : Reported s → Reported (aliasPass tt s a) :=
      checkAux_reported { a.2 with tt := tt, ffix := false, tfix := true } { s with f := a.1 }
    obtain ⟨x, y, z⟩ := ih (aliasPass tt s a) (by rw [h1]; exact hk)
    exact ⟨by rw [List.foldl_cons, x, h1], by rw [List.foldl_cons, y, h2], fun h => z (h3 h)⟩

theorem alias_lent (tt : TT) (htt : tt = .fcnPass) (l : List (Ref × Fact)) (s : St) (hk : Takes s.t.al)
    (a : Ref × Fact) (ha : a ∈ l) (on : ∀ m, a.2.on m = true)
    (st : a.2.strictReleased = true) (n2 : a.2.nullValue = false) (n3 : a.2.expMutable = true) (hc : a.1.isConst = false)
    (hl : Lent a.1.al s.t.al) : Reported (l.foldl (aliasPass tt) s) := by
  induction l generalizing s with
  | nil => cases ha
  | cons b l ih =>
    have h1 : (aliasPass tt s b).t = s.t := pass_t _ { s with f := b.1 } htt hk
    rcases List.mem_cons.1 ha with h | h
    · subst h
      refine (aliases_t tt htt l _ (by rw [h1]; exact hk)).2.2 ?_
      have := lent_aux { a.2 with tt := tt, ffix := false, tfix := true } { s with f := a.1 } (Or.inl htt) on st n2 n3 hc hk hl
      exact this
    · exact ih (aliasPass tt s b) (by rw [h1]; exact hk) h (by rw [h1]; exact hl)

/-! ## New storage -/

theorem reported_say (e : Fact) (s : St) (m : Msg) (on : ∀ m, e.on m = true) (hm : ofNull m = false) :
    Reported (s.say e m) := by
  unfold St.say
  rw [if_pos (on m)]
  exact reported_snoc _ _ _ _ hm

theorem reported_sayThen (e : Fact) (s : St) (m : Msg) (k : St → St) (on : ∀ m, e.on m = true) (hm : ofNull m = false)
    (hk : ∀ x, Ext x (k x)) : Reported (s.sayThen e m k) := by
  unfold St.sayThen
  rw [if_pos (on m)]
  exact Ext.reported (hk _) (reported_snoc _ _ _ _ hm)

/-- `byReceiver` leaves the receiver. -/
theorem byReceiver_t (e : Fact) (fk tk : AlKind) (s : St) : (byReceiver e fk tk s).t = s.t := by
  unfold byReceiver giveOnly
  simp only
  repeat' split
  all_goals simp [modFIf_t, say_t, St.modF]

/-- New storage at the point of `byKind`. -/
theorem new_only (e : Fact) (s : St) (on : ∀ m, e.on m = true) (ht : e.tt = .doAssign) (hff : e.ffix = false)
    (hf : isOnly s.f.al) (hn : s.f.isNew = true) (htc : s.t.isConst = false) (hte : s.t.al ≠ .error)
    (hx : s.t.shown = false ∨ Holds s.t.al)
    (hl : s.t.nsLocal = true → Holds s.t.al) :
    Reported (byKind e s) ∨ Holds (byKind e s).t.al := by
  have hb : byKind e s = checkOnly e s := by
    unfold byKind
    cases hfa : s.f.al <;> simp [hfa, isOnly] at hf <;> rfl
  rw [hb]
  unfold checkOnly
  simp only
  split
  · rename_i h
    rcases hx with h' | h'
    · rw [h'] at h; cases h
    · simp [ht]
      exact Or.inr h'
  split
  · rename_i h
    right
    cases hta : s.t.al <;> simp [hta, isOnly] at h <;> trivial
  split
  · rename_i h
    simp [ht] at h
  split
  · rename_i h
    simp only [ht, hn, hf, decide_true, Bool.and_self, if_true]
    split
    · exact Or.inl (Ext.reported (ext_modT _ _) (reported_snoc _ _ _ _ rfl))
    · right
      simp [hff, St.modTIf, St.modT, Ref.setNC, htc, Holds]
  split
  · rename_i h1 h
    simp [hte] at h
    simp [h.1] at h1
  split
  · rename_i h
    right
    simp at h
    exact hl h.2
  · exact Or.inl (reported_sayThen _ _ _ _ on rfl fun _ => ext_modFIf _ _ _)

theorem reset_al (r : Ref) : r.reset.al = r.oal ∨ r.reset.al = r.al := by
  unfold Ref.reset
  repeat' split
  all_goals simp

/-- The receiver of an assignment of new storage after its state was reset. -/
theorem assignState_new (e : Fact) (s : St) (htf : e.tfix = false) (hf : isOnly s.f.al) (hn : s.f.isNew = true)
    (hfc : s.f.isConst = false) (htc : s.t.isConst = false) :
    (assignState e s).f = s.f ∧ (assignState e s).t.isConst = false ∧ (assignState e s).t.nsLocal = s.t.nsLocal ∧
    (assignState e s).t.ex = s.t.oex ∧
    (s.t.nsLocal = true → s.t.isMutable = true → Holds (assignState e s).t.al) ∧
    ((assignState e s).t.al = .fresh ∨ (assignState e s).t.al = s.t.oal ∨ (assignState e s).t.al = s.t.al) := by
  have hnn : s.f.al ≠ .newRef := by intro h; rw [h] at hf; cases hf
  have hnr : s.f.al ≠ .refCounted := by intro h; rw [h] at hf; cases hf
  have hns : s.f.al ≠ .stack := by intro h; rw [h] at hf; cases hf
  have hr : s.t.reset.isConst = false ∧ s.t.reset.nsLocal = s.t.nsLocal ∧ s.t.reset.ex = s.t.oex
      ∧ s.t.reset.isMutable = s.t.isMutable := by
    unfold Ref.reset
    repeat' split
    all_goals simp [htc]
  have hc : assignCounted e (s.modT Ref.reset) = s.modT Ref.reset := by
    unfold assignCounted
    simp [St.modT, hnn, hnr, hfc]
  have hs : assignStack (s.modT Ref.reset) = s.modT Ref.reset := by
    simp [assignStack, St.modT, St.modTIf, hns]
  unfold assignState
  rw [hc, hs]
  obtain ⟨r1, r2, r3, r4⟩ := hr
  have ra := reset_al s.t
  have e1 : (s.modT Ref.reset).f = s.f := rfl
  have e2 : (s.modT Ref.reset).t = s.t.reset := rfl
  unfold assignFresh St.modTIf
  simp only [e1, e2, hf, hn, htf, Bool.not_false, Bool.and_true, r2, r4]
  split
  · simp [St.modT, Ref.setNC, r1, r2, r3, Holds]
  · rename_i h
    refine ⟨rfl, r1, r2, r3, ?_, Or.inr ra⟩
    intro h1 h2
    simp [h1, h2] at h
    show Holds s.t.reset.al
    rw [h]
    trivial

/-- New storage that is assigned. -/
theorem new_assign (e : Fact) (s : St) (on : ∀ m, e.on m = true) (hff : e.ffix = false) (htf : e.tfix = false)
    (ht : e.tt = .doAssign) (hn : e.sameName = false) (hf : isOnly s.f.al) (hnew : s.f.isNew = true)
    (hex : s.f.ex = .unknown ∨ s.f.ex = .normal) (hfc : s.f.isConst = false) (htc : s.t.isConst = false)
    (hte : s.t.al ≠ .error) (hto : s.t.oal ≠ .error) (hm : s.t.isMutable = true)
    (hx : (s.t.oex = .unknown ∨ s.t.oex = .normal) ∨ s.t.nsLocal = true) :
    Reported (checkAux e s) ∨ Holds (checkAux e s).t.al := by
  unfold checkAux
  simp only [ht, if_true, hff, htf, Bool.not_false, Bool.and_self]
  obtain ⟨n1, n2⟩ := checkNull_same e s
  generalize checkNull e s = s1 at *
  have hlost : Reported (checkLost e s1) ∨ ((checkLost e s1).f = s.f ∧ (checkLost e s1).t = s.t) := by
    unfold checkLost
    simp only
    repeat' split
    all_goals first
      | exact Or.inr ⟨n1, n2⟩
      | exact Or.inl (reported_say _ _ _ on rfl)
      | exact Or.inl (reported_sayThen _ _ _ _ on rfl fun _ => ext_modT _ _)
  have hca : checkAssign e s1 = assignState e (checkLost e s1) := by
    unfold checkAssign
    simp [hn]
  rw [hca]
  rcases hlost with h | ⟨lf, lt⟩
  · left
    exact Ext.reported (Ext.trans (ext_assignState e _) (Ext.trans (ext_checkDefined e _) (Ext.trans (ext_checkExposure e _)
      (Ext.trans (ext_byKind e _) (ext_byReceiver e _ _ _))))) h
  generalize checkLost e s1 = s2 at *
  obtain ⟨a1, a2, a3, a4, a5, a6⟩ := assignState_new e s2 htf (by rw [lf]; exact hf) (by rw [lf]; exact hnew)
    (by rw [lf]; exact hfc) (by rw [lt]; exact htc)
  generalize assignState e s2 = s3 at *
  obtain ⟨d1, d, d2⟩ := checkDefined_same e s3
  generalize checkDefined e s3 = s4 at *
  have hxp : checkExposure e s4 = s4 := by
    unfold checkExposure
    have h1 : s4.f.ex = s.f.ex := by rw [d1, a1, lf]
    rcases hex with h | h <;> simp [Ref.observer, Ref.exposed, h1, h]
  rw [hxp, byReceiver_t]
  have hb := new_only e s4 on ht hff (by rw [d1, a1, lf]; exact hf) (by rw [d1, a1, lf]; exact hnew)
    (by rw [d2]; exact a2) (by
      rw [d2]
      show s3.t.al ≠ .error
      rcases a6 with h | h | h <;> rw [h]
      · simp
      · rw [lt]; exact hto
      · rw [lt]; exact hte)
    (by
      rcases hx with h | h
      · left
        have : s4.t.ex = s.t.oex := by rw [d2]; show s3.t.ex = _; rw [a4, lt]
        rcases h with h | h <;> simp [Ref.shown, Ref.exposed, Ref.observer, this, h]
      · right
        rw [d2]
        exact a5 (by rw [lt]; exact h) (by rw [lt]; exact hm))
    (by
      rw [d2]
      intro h
      have h' : s2.t.nsLocal = true := by rw [← a3]; exact h
      exact a5 h' (by rw [lt]; exact hm))
  rcases hb with h | h
  · exact Or.inl (Ext.reported (ext_byReceiver e _ _ _) h)
  · exact Or.inr h

/-- New storage that is returned. -/
theorem new_return (e : Fact) (s : St) (on : ∀ m, e.on m = true) (ht : e.tt = .fcnReturn) (hmi : e.memImplicit = true)
    (hf : isOnly s.f.al ∧ s.f.isNew = true ∨ s.f.al = .fresh) (hnl : s.t.nsLocal = false)
    (hte : s.t.al ≠ .error ∧ s.t.al ≠ .local_) (hk : ¬ Takes s.t.al) (hnr : s.t.al ≠ .newRef) :
    Reported (checkAux e s) := by
  unfold checkAux
  simp only [ht, reduceCtorEq, if_false]
  have h1 : ∃ s1, (if (!e.ffix && !e.tfix) = true then checkNull e s else s) = s1 ∧ s1.f = s.f ∧ s1.t = s.t := by
    split
    · exact ⟨_, rfl, checkNull_same e s⟩
    · exact ⟨_, rfl, rfl, rfl⟩
  obtain ⟨s1, h1, h1f, h1t⟩ := h1
  rw [h1]
  have h2 : checkDefined e s1 = s1 := by simp [checkDefined, ht, St.modTIf]
  rw [h2]
  refine Ext.reported (ext_byReceiver e _ _ _) ?_
  have hxp : Reported (checkExposure e s1) ∨ ((checkExposure e s1).f = s.f ∧ (checkExposure e s1).t = s.t) := by
    unfold checkExposure
    simp only [ht, ne_eq, reduceCtorEq, not_false_eq_true, if_true, decide_false, Bool.false_and, Bool.and_false,
      Bool.or_false, Bool.false_eq_true, if_false]
    repeat' split
    all_goals first
      | exact Or.inr ⟨h1f, h1t⟩
      | exact Or.inl (reported_say _ _ _ on rfl)
      | exact Or.inl (reported_sayThen _ _ _ _ on rfl fun _ => ext_modTIf _ _ _)
      | exact Or.inl (Ext.reported (ext_modTIf _ _ _) (reported_snoc _ _ _ _ rfl))
  rcases hxp with h | ⟨xf, xt⟩
  · exact Ext.reported (ext_byKind e _) h
  generalize checkExposure e s1 = s2 at *
  have ho : isOnly s.t.al = false := by
    cases hta : s.t.al <;> simp [hta, Takes] at hk <;> rfl
  have hkeep : s.t.al ≠ .keep := by intro h; rw [h] at hk; exact hk trivial
  have hown : s.t.al ≠ .owned := by intro h; rw [h] at hk; exact hk trivial
  rcases hf with ⟨hf, hn⟩ | hf
  · have hb : byKind e s2 = checkOnly e s2 := by
      unfold byKind
      rw [xf]
      cases hfa : s.f.al <;> simp [hfa, isOnly] at hf <;> rfl
    rw [hb]
    unfold checkOnly
    simp only [xf, xt, ht, hn, hte.1, hte.2, ho, hkeep, hown, hnl, hmi, reduceCtorEq, ne_eq, not_false_eq_true, decide_true,
      decide_false, Bool.and_true, Bool.and_self, Bool.false_and, Bool.and_false, Bool.or_false, Bool.false_or,
      Bool.false_eq_true, Bool.not_true, if_true, if_false]
    repeat' split
    all_goals first
      | exact reported_say _ _ _ on rfl
      | exact reported_sayThen _ _ _ _ on rfl fun _ => ext_modFIf _ _ _
  · have hb : byKind e s2 = checkFresh e s2 := by
      unfold byKind
      rw [xf, hf]
    rw [hb]
    unfold checkFresh
    refine Ext.reported (ext_freshGive e _ _) ?_
    unfold freshReturn
    simp only [xt, ht, ho, hnr, hte.1, hmi, decide_true, decide_false, Bool.or_self, Bool.not_false, Bool.and_self, if_true,
      Bool.not_true, Bool.and_false, Bool.false_eq_true, if_false]
    split
    all_goals exact reported_sayThen _ _ _ _ on rfl fun _ => ext_modF _ _

end Splint.Transfer
