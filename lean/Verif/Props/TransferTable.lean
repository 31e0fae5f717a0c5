import Verif.Proofs.TransferTable
import Verif.Props.Transfer
/-!
# C68–C70: which message is shown, and what a transfer leaves behind
-/
namespace Splint.Transfer
open Spec

/-! ## C68 -/

/-- Calls and returns of storage that is neither null nor exposed: exactly one message or none, by the kinds of both sides. -/
theorem C68_told_exactly (e : Fact) (s : St) (ret : Bool) (hp : Plain e) (ht : e.tt = if ret then .fcnReturn else .fcnPass) (hf : Proper e s.f)
    (hn : Neutral e s.f s.t) (hx : s.t.shown = false) (hfx : s.f.ex = .unknown ∨ s.f.ex = .normal) (hnull : possiblyNull e s.f = false) :
    (checkAux e s).out = s.out ++ (told ret s.f.al s.t.al).toList := by
  rw [aux_core e s (by cases ret <;> simp_all) hfx hnull]
  exact told_core e s.f s.t ret s.out hp ht hf hn hx

/-- A parameter that is lent is not returned as the caller's. -/
example : Neutral (fact0 .fcnReturn) (ref0 .temp) (ref0 .only) ∧ (ref0 .only).shown = false ∧ possiblyNull (fact0 .fcnReturn) (ref0 .temp) = false ∧
    told true .temp .only = some .tempTrans ∧ told false .temp .temp = none :=
  ⟨⟨rfl, rfl, rfl, rfl, rfl, rfl, rfl, rfl, by decide⟩, by decide, by decide, rfl, rfl⟩

/-- Storage that is exposed is returned as a result that is not without a message, unless it is a parameter. -/
theorem C68_expose_exactly (e : Fact) (s : St) (hp : Plain e) (ht : e.tt = .fcnReturn) (hf : s.f.ex = .exposed) (hm : s.f.isMutable = true)
    (h0 : s.out = []) : Msg.exposeTrans ∈ (checkAux e s).out ↔ s.t.ex ≠ .exposed ∧ s.t.ex ≠ .observer ∧ s.f.isParam = false := by
  rw [exposure_aux e s (by simp [ht]) rfl]
  obtain ⟨l, hl, he⟩ := checkNull_shape e s
  simp only [hp.ffix, hp.tfix, Bool.not_false, Bool.and_self, if_true, he]
  have hd : checkDefined e { s with out := s.out ++ l } = { s with out := s.out ++ l } := by simp [checkDefined, ht, St.modTIf]
  have hl2 : Msg.exposeTrans ∉ l := fun h => by
    have := hl _ h
    simp [ofNull] at this
  rw [hd]
  simp only [checkExposure, Ref.observer, Ref.exposed, Ref.shown, hf, hm, ht, St.say, hp.on]
  cases hx : s.t.ex <;> cases hpar : s.f.isParam <;> simp [h0, hl2]

example : Msg.exposeTrans ∈ (checkAux (fact0 .fcnReturn) ⟨{ ref0 .dependent with ex := .exposed }, ref0 .dependent, []⟩).out := by decide +kernel

/-! ## C69 -/

/-- The reference assigned to holds storage that must be released, and the assignment makes it unreachable. -/
def Overwritten (e : Fact) (t : Ref) : Prop :=
  (t.al = .only ∨ t.al = .impOnly ∨ t.al = .fresh ∨ t.al = .newRef ∨ t.al = .owned) ∧
  t.defst ∉ [SState.dead, .undefined, .unuseable, .partial_] ∧ t.isDefNull = false ∧
  t.stackAllocated = false ∧ t.allocIndex = false ∧ e.same = false ∧ e.tDefNull = false ∧ e.canLoseT = false

/-- Storage that an assignment makes unreachable is reported, exactly. What is not told: initialisers outside of functions, and elements
with an unknown index (without `strictdestroy`), fields of unions and `reldef` storage. -/
theorem C69_overwritten_exactly (e : Fact) (s : St) (hp : Plain e) (ht : e.tt = .doAssign) (hn : e.sameName = false) (h0 : s.out = []) :
    (Msg.mustFreeFresh ∈ (checkAux e s).out ∨ Msg.mustFreeOnly ∈ (checkAux e s).out) ↔
      Overwritten e s.t ∧ (e.hasLast = true ∨ (e.globalScope = false ∧
        (s.t.al = .newRef ∨ ((s.t.unknownFetch = false ∨ e.strictDestroy = true) ∧ s.t.unionField = false ∧ s.t.defst ≠ .relDef)))) := by
  rw [loss_aux e s ht hn rfl, loss_aux e s ht hn rfl]
  obtain ⟨l, hl, he⟩ := checkNull_shape e s
  simp only [hp.ffix, hp.tfix, Bool.not_false, Bool.and_self, if_true, he]
  have hl1 : Msg.mustFreeFresh ∉ l := fun h => by
    have := hl _ h
    simp [ofNull] at this
  have hl2 : Msg.mustFreeOnly ∉ l := fun h => by
    have := hl _ h
    simp [ofNull] at this
  unfold checkLost Overwritten
  simp only [h0, List.nil_append]
  cases hc : e.canLoseT
  · cases hal : s.t.al <;> simp only [isOnly] <;>
      simp [hl1, hl2] <;>
      (split
       · next hx =>
         simp only [hx, true_and, not_false_eq_true, and_self]
         split_ifs <;> simp_all [St.say, St.sayThen, hp.on, St.modT] <;> tauto
       · next hx => simp_all <;> tauto)
  · simp [hl1, hl2]

example : Msg.mustFreeFresh ∈ (checkAux (fact0 .doAssign) ⟨ref0 .unknown, { ref0 .fresh with oal := .local_ }, []⟩).out ∧
    Overwritten (fact0 .doAssign) { ref0 .fresh with oal := .local_ } := by
  constructor
  · decide +kernel
  · simp [Overwritten, ref0, fact0, Ref.isDefNull]

/-- New storage that is owned is not returned as a result that is exposed or an observer without a message. -/
theorem C69_shown (e : Fact) (s : St) (on : ∀ m, e.on m = true) (ht : e.tt = .fcnReturn) (hf : s.f.al = .owned) (hnew : s.f.isNew = true)
    (hx : s.t.shown = true) (hfx : s.f.ex = .unknown ∨ s.f.ex = .normal) (hnull : possiblyNull e s.f = false) :
    Msg.ownedTrans ∈ (checkAux e s).out := by
  rw [aux_core e s (.inr ht) hfx hnull]
  have h1 : byKind e s = { s with out := s.out ++ [.ownedTrans] } := by
    simp [byKind, hf, checkOwned, hx, ht, hnew, St.say, on]
  unfold core
  rw [h1]
  obtain ⟨l, h2, -⟩ := ext_byReceiver e s.f.al s.t.al { s with out := s.out ++ [.ownedTrans] }
  rw [h2]
  simp

example : Msg.ownedTrans ∈ (checkAux (fact0 .fcnReturn) ⟨{ ref0 .owned with isNew := true }, { ref0 .unknown with ex := .observer }, []⟩).out := by
  decide +kernel

/-- A new reference to counted storage is not passed to a parameter that does not release it without a message. -/
theorem C69_newref (e : Fact) (returned : Bool) (aliases : List (Ref × Fact)) (s : St) (on : ∀ m, e.on m = true)
    (hnew : s.f.isNew = true) (hloc : s.f.isLocal = false) (hf : s.f.al = .newRef) (hk : s.t.al ≠ .killRef) (hte : s.t.al ≠ .error) :
    Reported (passParam e false returned aliases s) := by
  unfold passParam checkTransfer
  have h1 : isOnly AlKind.newRef = false := rfl
  simp only [Bool.false_eq_true, if_false, hnew, if_true, hf, h1, hk, hte, ne_eq, not_false_eq_true, decide_true, Bool.and_self,
    reduceCtorEq, decide_false, Bool.false_or, Bool.false_and, say_f, hloc]
  exact checkAux_reported _ _ (reported_say _ _ _ on rfl)

example : Reported (passParam (fact0 .fcnPass) false false [] ⟨{ ref0 .newRef with isNew := true }, ref0 .temp, []⟩) := by
  decide +kernel

/-! ## C70 -/

/-- After a call the argument is dead, and no longer the only reference. -/
theorem C70_only_exactly (e : Fact) (s : St) (hff : e.ffix = false) (ht : e.tt = .fcnPass) (hf : isOnly s.f.al) (hk : isOnly s.t.al)
    (hc : s.f.isConst = false) (hu : s.f.unknownFetch = false) (ha : s.f.isAddress = false) (hx : s.t.shown = false) (hfx : s.f.ex = .unknown ∨ s.f.ex = .normal)
    (hnull : possiblyNull e s.f = false) : (checkAux e s).f = { s.f with al := s.f.oal, defst := .dead } := by
  rw [aux_core e s (.inl ht) hfx hnull]
  unfold core byKind
  cases hfa : s.f.al <;> simp [hfa, isOnly] at hf <;> cases hta : s.t.al <;> simp [hta, isOnly] at hk <;>
    simp [checkOnly, hx, hta, isOnly, byReceiver, giveOnly, ha, ht, St.modFIf, hff, St.modF] <;>
    split_ifs <;> simp [Ref.killC, Ref.kill, hfa, hc, hu, ha]

example : (checkAux (fact0 .fcnPass) ⟨{ ref0 .only with oal := .local_ }, ref0 .only, []⟩).f.al = .local_ := by decide +kernel

/-- A variable that is assigned storage of which nothing is known is as it was declared; one that is assigned the address of a
local variable is known as such. -/
theorem C70_receiver (e : Fact) (s : St) (ht : e.tt = .doAssign) (hn : e.sameName = false)
    (hf : s.f.al = .unknown ∨ s.f.al = .static ∨ s.f.al = .stack) (hfc : s.f.isConst = false) (hfx : s.f.ex = .unknown ∨ s.f.ex = .normal)
    (hk : s.t.oal ≠ .killRef) (hr : s.t.al ≠ .refCounted ∧ s.t.al ≠ .refs) :
    (checkAux e s).t.al = if s.f.al = .stack ∧ s.f.isSU = false then .stack else s.t.oal := by
  have key : ∀ s0 : St, s0.f = s.f → s0.t.oal = s.t.oal → s0.t.al ≠ .refCounted → s0.t.al ≠ .refs → s0.t.isParam = s.t.isParam →
      (assignState e s0).f = s.f ∧ (assignState e s0).t.al = if s.f.al = .stack ∧ s.f.isSU = false then .stack else s.t.oal := by
    intro s0 h1 h2 h3 h4 h5
    have hres : Ref.reset s0.t = { s0.t with ex := s0.t.oex, al := s.t.oal } := by
      unfold Ref.reset
      simp [h2, hk, h3, h4]
    have hco : assignCounted e (s0.modT Ref.reset) = s0.modT Ref.reset := by
      unfold assignCounted
      simp only [St.modT, h1, hfc]
      rcases hf with h | h | h <;> simp [h]
    unfold assignState assignFresh assignStack
    rw [hco]
    simp only [St.modT, hres, St.modTIf, h1]
    rcases hf with h | h | h <;> cases hsu : s.f.isSU <;> simp [h, isOnly, h1, Ref.setAl]
  -- before that, only a new reference loses its kind
  have hlost : ∀ s0 : St, s0.f = s.f → s0.t = s.t → (checkLost e s0).f = s.f ∧ (checkLost e s0).t.oal = s.t.oal ∧
      (checkLost e s0).t.al ≠ .refCounted ∧ (checkLost e s0).t.al ≠ .refs ∧ (checkLost e s0).t.isParam = s.t.isParam := by
    intro s0 h1 h2
    unfold checkLost
    simp only
    split_ifs <;> simp_all [St.say, St.sayThen, St.modT, Ref.setAl] <;> split_ifs <;> simp_all
  unfold checkAux checkAssign
  simp only [ht, if_true, hn, Bool.false_eq_true, if_false]
  rw [byReceiver_t]
  have hnf : ∀ s0 : St, (if (!e.ffix && !e.tfix) = true then checkNull e s0 else s0).f = s0.f ∧
      (if (!e.ffix && !e.tfix) = true then checkNull e s0 else s0).t = s0.t := by
    intro s0
    split
    · exact checkNull_same e s0
    · exact ⟨rfl, rfl⟩
  obtain ⟨a1, a2, a3, a4, a5⟩ := hlost _ (hnf s).1 (hnf s).2
  obtain ⟨b1, b2⟩ := key _ a1 a2 a3 a4 a5
  generalize assignState e _ = s1 at b1 b2
  have hd : (checkDefined e s1).f = s1.f ∧ (checkDefined e s1).t.al = s1.t.al := by
    unfold checkDefined
    simp only [St.modTIf, St.modT]
    split_ifs <;> simp
  have hx : checkExposure e (checkDefined e s1) = checkDefined e s1 := by
    unfold checkExposure
    simp only [Ref.observer, Ref.exposed, hd.1, b1]
    rcases hfx with h | h <;> simp [h]
  rw [hx]
  have hb : byKind e (checkDefined e s1) = checkDefined e s1 := by
    unfold byKind
    rw [hd.1, b1]
    rcases hf with h | h | h <;> simp [h]
  rw [hb, hd.2, b2]

example : (checkAux (fact0 .doAssign) ⟨ref0 .stack, { ref0 .local_ with al := .fresh, defst := .dead }, []⟩).t.al = .stack ∧
    (checkAux (fact0 .doAssign) ⟨ref0 .unknown, { ref0 .local_ with al := .fresh, defst := .dead }, []⟩).t.al = .local_ := by
  constructor <;> decide +kernel

/-- A local variable whose new storage is assigned to an `only` reference: dead if that is a global variable, otherwise kept. -/
theorem C70_assign_fresh (e : Fact) (s : St) (hp : Plain e) (hf : s.f.al = .fresh) (hc : s.f.isConst = false) (hu : s.f.unknownFetch = false)
    (ht : e.tt = .doAssign) (hk : isOnly s.t.al) (hns : s.t.nsLocal = false) (hn : e.sameName = false) (ha : s.f.isAddress = false) :
    (core e s).f.defst = (if s.t.isGlobal then .dead else s.f.defst) ∧ (s.t.isGlobal = false → (core e s).f.al = .kept) := by
  unfold core byKind
  have hta : s.t.al = .only ∨ s.t.al = .impOnly := by
    cases h : s.t.al <;> simp [h, isOnly] at hk <;> simp
  cases hg : s.t.isGlobal <;> rcases hta with hta | hta <;>
    simp [hf, checkFresh, freshReturn, freshGive, ht, hta, isOnly, hns, hg, hc, hp.ffix, hp.tfix, St.modFIf, St.modF, byReceiver, giveOnly,
      Ref.setC, Ref.setNC, Ref.killC, Ref.kill, ha, hu, hn] <;>
    split_ifs <;> simp_all

example : (core (fact0 .doAssign) ⟨{ ref0 .fresh with oal := .local_ }, { ref0 .only with isGlobal := true }, []⟩).f.defst = .dead := by
  decide +kernel

/-- A local variable whose new storage is assigned to an `owned` reference is dependent on it, and remains usable. -/
theorem C70_assign_fresh_owned (e : Fact) (s : St) (hp : Plain e) (hf : s.f.al = .fresh) (hc : s.f.isConst = false)
    (hu : s.f.unknownFetch = false) (ht : e.tt = .doAssign) (hk : s.t.al = .owned) (ha : s.f.isAddress = false) :
    (core e s).f.al = .dependent ∧ (core e s).f.defst = s.f.defst := by
  unfold core byKind
  simp [hf, checkFresh, freshReturn, freshGive, ht, hk, isOnly, hp.ffix, hp.tfix, St.modFIf, St.modF, byReceiver,
      Ref.setC, Ref.setNC, ha, hu, hc] <;> split_ifs <;> simp_all

example : (core (fact0 .doAssign) ⟨{ ref0 .fresh with oal := .local_ }, ref0 .owned, []⟩).f.al = .dependent := by
  decide +kernel

/-- New storage that is passed as an `owned` parameter is dependent on it, and remains usable. -/
theorem C70_pass_fresh_owned (e : Fact) (s : St) (hp : Plain e) (hf : s.f.al = .fresh) (hc : s.f.isConst = false)
    (hu : s.f.unknownFetch = false) (ht : e.tt = .fcnPass) (hk : s.t.al = .owned) (hn : e.sameName = false) (ha : s.f.isAddress = false) :
    (core e s).f.al = .dependent ∧ (core e s).f.defst = s.f.defst := by
  unfold core byKind
  simp [hf, checkFresh, freshReturn, freshGive, ht, hk, isOnly, hp.ffix, hp.tfix, St.modFIf, St.modF, byReceiver,
      Ref.setC, Ref.setNC, ha, hu, hn, hc]

example : (core (fact0 .fcnPass) ⟨{ ref0 .fresh with oal := .local_ }, ref0 .owned, []⟩).f.al = .dependent := by
  decide +kernel

end Splint.Transfer
