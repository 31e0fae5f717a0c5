import Verif.Proofs.Transfer
namespace Splint.Transfer
open Spec

set_option maxHeartbeats 4000000 in
theorem told_core (e : Fact) (f t : Ref) (ret : Bool) (l : List Msg) (hp : Plain e) (ht : e.tt = if ret then .fcnReturn else .fcnPass) (hf : Proper e f)
    (hn : Neutral e f t) (hx : t.shown = false) : (core e ⟨f, t, l⟩).out = l ++ (told ret f.al t.al).toList := by
  obtain ⟨on, st, ff, tf⟩ := hp
  obtain ⟨n1, n2, n3, n4, n5⟩ := hf
  obtain ⟨m1, m2, m3, m4, m5, m6, m7, m8, m9⟩ := hn
  simp only [Ref.shown, Bool.or_eq_false_iff] at hx
  obtain ⟨x1, x2⟩ := hx
  unfold core byKind told
  cases ret <;> simp only [Bool.false_eq_true, if_true, if_false] at ht
  · cases hfa : f.al <;> simp only <;> cases hta : t.al <;>
    simp [byReceiver, giveOnly, checkOnly, checkOwned, checkFresh, freshReturn, freshGive, checkDependent, checkShared, checkKeep, checkTemp,
      checkCounted, St.say, St.sayThen, on, ht, isOnly, isTemp, isDependent, St.modF, St.modT, Ref.shown, x1, x2,
      St.modFIf, St.modTIf, Ref.setAl, Ref.setNC, Ref.setC, Ref.killC, Ref.kill, Ref.maybeKill, n1, n2, n3, n4, n5, st, ff, tf, hfa, hta, m1, m2, m3, m4, m5, m6, m7, m8, m9] <;> (try (split_ifs <;> simp_all; done))
  · cases hfa : f.al <;> simp only <;> cases hta : t.al <;>
    simp [byReceiver, giveOnly, checkOnly, checkOwned, checkFresh, freshReturn, freshGive, checkDependent, checkShared, checkKeep, checkTemp,
      checkCounted, St.say, St.sayThen, on, ht, isOnly, isTemp, isDependent, St.modF, St.modT, Ref.shown, x1, x2,
      St.modFIf, St.modTIf, Ref.setAl, Ref.setNC, Ref.setC, Ref.killC, Ref.kill, Ref.maybeKill, n1, n2, n3, n4, n5, st, ff, tf, hfa, hta, m1, m2, m3, m4, m5, m6, m7, m8, m9] <;> (try (split_ifs <;> simp_all; done))

/-! ## Which step adds which messages -/

/-- the messages about lost storage -/
def ofLoss : Msg → Bool
  | .mustFreeFresh | .mustFreeOnly => true
  | _ => false

/-- the messages about exposure -/
def ofExposure : Msg → Bool
  | .readOnlyTrans | .observerTrans | .exposeTrans => true
  | _ => false

/-- Messages were added, none of them with the property `p`. -/
def GExt (p : Msg → Bool) (s s' : St) : Prop := ∃ l, s'.out = s.out ++ l ∧ ∀ m ∈ l, p m = false

variable {p : Msg → Bool}

theorem GExt.refl (s : St) : GExt p s s := ⟨[], by simp, by simp⟩
theorem GExt.trans {a b c : St} (h : GExt p a b) (h' : GExt p b c) : GExt p a c := by
  obtain ⟨l, h1, h2⟩ := h
  obtain ⟨k, h3, h4⟩ := h'
  refine ⟨l ++ k, by rw [h3, h1, List.append_assoc], ?_⟩
  intro m hm
  rcases List.mem_append.1 hm with h | h
  · exact h2 m h
  · exact h4 m h

theorem GExt.mem {s s' : St} (h : GExt p s s') {m : Msg} (hm : p m = true) : m ∈ s'.out ↔ m ∈ s.out := by
  obtain ⟨l, h1, h2⟩ := h
  rw [h1, List.mem_append]
  refine ⟨fun h => h.elim id fun h => ?_, Or.inl⟩
  rw [h2 m h] at hm
  cases hm

theorem gext_snoc (s : St) (m : Msg) (hm : p m = false) : GExt p s { s with out := s.out ++ [m] } :=
  ⟨[m], rfl, by simpa using hm⟩
theorem gext_modF (g : Ref → Ref) (s : St) : GExt p s (s.modF g) := GExt.refl s
theorem gext_modT (g : Ref → Ref) (s : St) : GExt p s (s.modT g) := GExt.refl s
theorem gext_modFIf (c : Bool) (g : Ref → Ref) (s : St) : GExt p s (s.modFIf c g) := by
  unfold St.modFIf; split <;> exact GExt.refl _
theorem gext_modTIf (c : Bool) (g : Ref → Ref) (s : St) : GExt p s (s.modTIf c g) := by
  unfold St.modTIf; split <;> exact GExt.refl _
theorem gext_say (e : Fact) (m : Msg) (s : St) (hm : p m = false) : GExt p s (s.say e m) := by
  unfold St.say; split
  · exact gext_snoc s m hm
  · exact GExt.refl _
theorem gext_sayThen (e : Fact) (m : Msg) (k : St → St) (hm : p m = false) (hk : ∀ x, GExt p x (k x)) (s : St) :
    GExt p s (s.sayThen e m k) := by
  unfold St.sayThen; split
  · exact GExt.trans (gext_snoc s m hm) (hk _)
  · exact GExt.refl _

macro "gext_leaf" : tactic => `(tactic| first
  | exact GExt.refl _ | exact gext_modF _ _ | exact gext_modT _ _ | exact gext_modFIf _ _ _ | exact gext_modTIf _ _ _
  | exact gext_say _ _ _ rfl
  | exact gext_sayThen _ _ _ rfl (fun _ => gext_modF _ _) _
  | exact gext_sayThen _ _ _ rfl (fun _ => gext_modT _ _) _
  | exact gext_sayThen _ _ _ rfl (fun _ => gext_modFIf _ _ _) _
  | exact gext_sayThen _ _ _ rfl (fun _ => gext_modTIf _ _ _) _
  | exact GExt.trans (gext_say _ _ _ rfl) (gext_modF _ _)
  | exact GExt.trans (gext_say _ _ _ rfl) (gext_modFIf _ _ _)
  | exact GExt.trans (gext_say _ _ _ rfl) (gext_modTIf _ _ _)
  | exact GExt.trans (gext_modTIf _ _ _) (gext_modFIf _ _ _)
  | exact GExt.trans (gext_modFIf _ _ _) (gext_say _ _ _ rfl)
  | exact GExt.trans (gext_snoc _ _ rfl) (gext_modTIf _ _ _)
  | exact GExt.trans (gext_snoc _ _ rfl) (gext_modT _ _)
  | exact gext_snoc _ _ rfl
  | exact GExt.trans (gext_modT _ _) (gext_say _ _ _ rfl)
  | exact GExt.trans (GExt.trans (gext_say _ _ _ rfl) (gext_modF _ _)) (gext_modFIf _ _ _))

macro "gext_step" : tactic => `(tactic| (simp only; (repeat' split) <;> gext_leaf))

theorem late_kind (e : Fact) (s : St) : GExt (fun m => ofLoss m || ofExposure m) s (byKind e s) := by
  unfold byKind
  split
  · unfold checkOnly; gext_step
  · unfold checkOnly; gext_step
  · refine GExt.trans (b := freshReturn e s) ?_ ?_
    · unfold freshReturn; gext_step
    · unfold checkFresh freshGive; repeat' split
      all_goals gext_leaf
  · unfold checkOwned; gext_step
  · unfold checkDependent; gext_step
  · unfold checkDependent; gext_step
  · unfold checkShared; gext_step
  · unfold checkKeep; gext_step
  · unfold checkTemp; gext_step
  · unfold checkTemp; gext_step
  · unfold checkTemp; gext_step
  · unfold checkCounted; gext_step
  · unfold checkCounted; gext_step
  · exact GExt.refl _

theorem late_receiver (e : Fact) (fk tk : AlKind) (s : St) : GExt (fun m => ofLoss m || ofExposure m) s (byReceiver e fk tk s) := by
  unfold byReceiver giveOnly
  gext_step

theorem GExt.mono {q : Msg → Bool} {s s' : St} (h : GExt p s s') (hq : ∀ m, p m = false → q m = false) : GExt q s s' := by
  obtain ⟨l, h1, h2⟩ := h
  exact ⟨l, h1, fun m hm => hq m (h2 m hm)⟩

theorem loss_exposure (e : Fact) (s : St) : GExt ofLoss s (checkExposure e s) := by
  unfold checkExposure
  gext_step

theorem loss_defined (e : Fact) (s : St) : GExt p s (checkDefined e s) := by
  unfold checkDefined
  gext_step

theorem loss_state (e : Fact) (s : St) : GExt ofLoss s (assignState e s) := by
  refine GExt.trans (gext_modT Ref.reset _) (GExt.trans (b := assignCounted e (s.modT Ref.reset)) ?_ (GExt.trans (gext_modTIf _ _ _) (gext_modTIf _ _ _)))
  unfold assignCounted
  gext_step

/-- Lost storage is told of by `checkLost` only. -/
theorem loss_aux (e : Fact) (s : St) (ht : e.tt = .doAssign) (hn : e.sameName = false) {m : Msg} (hm : ofLoss m = true) :
    m ∈ (checkAux e s).out ↔ m ∈ (checkLost e (if !e.ffix && !e.tfix then checkNull e s else s)).out := by
  have hl : ∀ m, (ofLoss m || ofExposure m) = false → ofLoss m = false := by
    intro m h
    simp only [Bool.or_eq_false_iff] at h
    exact h.1
  refine GExt.mem (p := ofLoss) ?_ hm
  unfold checkAux checkAssign
  simp only [ht, if_true, hn, Bool.false_eq_true, if_false]
  refine GExt.trans ?_ ((late_receiver e _ _ _).mono hl)
  refine GExt.trans ?_ ((late_kind e _).mono hl)
  refine GExt.trans ?_ (loss_exposure e _)
  refine GExt.trans ?_ (loss_defined e _)
  exact loss_state e _

/-- Exposure is told of by `checkExposure` only. -/
theorem exposure_aux (e : Fact) (s : St) (ht : e.tt ≠ .doAssign) {m : Msg} (hm : ofExposure m = true) :
    m ∈ (checkAux e s).out ↔ m ∈ (checkExposure e (checkDefined e (if !e.ffix && !e.tfix then checkNull e s else s))).out := by
  have hl : ∀ m, (ofLoss m || ofExposure m) = false → ofExposure m = false := by
    intro m h
    simp only [Bool.or_eq_false_iff] at h
    exact h.2
  refine GExt.mem (p := ofExposure) ?_ hm
  unfold checkAux
  simp only [ht, if_false]
  exact GExt.trans ((late_kind e _).mono hl) ((late_receiver e _ _ _).mono hl)

/-- For calls and returns of storage that is neither null nor exposed, only the last part matters. -/
theorem aux_core (e : Fact) (s : St) (ht : e.tt = .fcnPass ∨ e.tt = .fcnReturn) (hx : s.f.ex = .unknown ∨ s.f.ex = .normal)
    (hnull : possiblyNull e s.f = false) : checkAux e s = core e s := by
  have h1 : e.tt ≠ .doAssign := by rcases ht with h | h <;> rw [h] <;> decide
  have h2 : e.tt ≠ .fieldAssign := by rcases ht with h | h <;> rw [h] <;> decide
  have hn : checkNull e s = s := by simp [checkNull, hnull]
  have hd : checkDefined e s = s := by simp [checkDefined, h1, h2, St.modTIf]
  have he : checkExposure e s = s := by
    rcases hx with h | h <;> simp [checkExposure, Ref.observer, Ref.exposed, h]
  unfold checkAux core
  simp only [hn, h1, if_false, ite_self, hd, he]

end Splint.Transfer
