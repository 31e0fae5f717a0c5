import Verif.Tactics
import Verif.Spec.Report
import Verif.Proofs.CString
namespace Splint
open Spec
namespace Reporter

/-- Fresh messages with the log as accumulator. -/
def freshFrom (log : List MsgEntry) : List Event → List (FileLoc × Bytes × Bool)
  | [] => []
  | .cleanup :: rest => freshFrom log rest
  | .msg l t e :: rest =>
    if (MessageLog.add log l t).2 then (l, t, e) :: freshFrom (MessageLog.add log l t).1 rest
    else freshFrom (MessageLog.add log l t).1 rest

theorem freshFrom_eq (log : List MsgEntry) (es : List Event) :
    freshFrom log es = (((messages es).zip
    (MessageLog.run log ((messages es).map fun m => (m.1, m.2.1))).2).filter (·.2)).map (·.1) := by
  induction es generalizing log with
  | nil => rfl
  | cons e es ih =>
    cases e with
    | cleanup => simpa [freshFrom, messages] using ih log
    | msg l t b =>
      simp only [freshFrom, messages, List.map_cons, MessageLog.run, List.zip_cons_cons,
        List.filter_cons]
      split
      · simp only [List.map_cons]; rw [ih]
      · exact ih _

theorem freshMessages_eq (es : List Event) : freshMessages es = freshFrom [] es :=
  (freshFrom_eq [] es).symm

theorem shownOf_append (a b : List OutItem) : shownOf (a ++ b) = shownOf a ++ shownOf b := by
  induction a with
  | nil => rfl
  | cons x a ih => cases x <;> simp [shownOf, ih]

theorem announced_append (a b : List OutItem) : announced (a ++ b) = announced a + announced b := by
  induction a with
  | nil => simp [announced]
  | cons x a ih => cases x <;> simp [announced, ih]; omega

/-- Warnings generated but neither shown nor announced yet. -/
def pending (limit : Int) (s : Reporter) : Int := if limit < 0 then 0 else max 0 (s.mcount - limit)

/-- Invariant of the reporter. -/
def Inv (limit : Int) (s : Reporter) : Prop :=
  0 ≤ s.mcount ∧ (limit < 0 → s.saved = none) ∧ (0 ≤ limit → (s.saved = none ↔ s.mcount ≤ limit))

def total (s : Reporter) : Int := (shownOf s.out).length + announced s.out

theorem cleanup_spec {limit : Int} {s : Reporter} (h : Inv limit s) :
    Inv limit (cleanup limit s) ∧ pending limit (cleanup limit s) = 0 ∧
    (cleanup limit s).mcount = 0 ∧ (cleanup limit s).saved = none ∧
    total (cleanup limit s) = total s + pending limit s ∧
    (cleanup limit s).lastmsg = s.lastmsg ∧ (cleanup limit s).log = s.log ∧
    (cleanup limit s).numerrors = s.numerrors ∧
    (shownOf (cleanup limit s).out).Sublist (shownOf s.out ++ s.saved.toList) := by
  obtain ⟨h1, h2, h3⟩ := h
  unfold cleanup
  by_cases hl : limit < 0
  · simp [hl, Inv, pending, h2 hl, total]
  · have hl' : 0 ≤ limit := by omega
    have h3 := h3 hl'
    rcases s with ⟨log, mcount, saved, last, ne, out⟩
    simp only [] at *
    by_cases hu : mcount - limit > 0
    · rcases saved with _ | ⟨loc, text⟩
      · exact absurd (h3.1 rfl) (by omega)
      · simp only [hl, hu, if_false, if_true]
        split
        · refine ⟨⟨by simp, by simp, by simp <;> omega⟩, ?_, by simp, by simp, ?_, by simp, by simp, by simp, ?_⟩
          · simp [pending, hl']
          · simp [pending, hl, total, shownOf_append, announced_append, shownOf, announced]; omega
          · simp [shownOf_append, shownOf]
        · refine ⟨⟨by simp, by simp, by simp <;> omega⟩, ?_, by simp, by simp, ?_, by simp, by simp, by simp, ?_⟩
          · simp [pending, hl']
          · simp [pending, hl, total, shownOf_append, announced_append, shownOf, announced]; omega
          · simp [shownOf_append, shownOf]
    · have : saved = none := h3.2 (by omega)
      subst this
      simp only [hl, hu, if_false]
      refine ⟨⟨by simp, by simp, by simp <;> omega⟩, ?_, by simp, by simp, ?_, by simp, by simp, by simp, ?_⟩
      · simp [pending, hl']
      · simp [pending, hl, total]; omega
      · simp

theorem emit_spec {limit : Int} {s : Reporter} (h : Inv limit s) (l : FileLoc) (t : Bytes)
    (e : Bool) :
    Inv limit (emit limit s l t e) ∧
    total (emit limit s l t e) + pending limit (emit limit s l t e) = total s + pending limit s + 1 ∧
    (emit limit s l t e).log = s.log ∧
    (emit limit s l t e).numerrors = s.numerrors + (if e then 1 else 0) ∧
    (shownOf (emit limit s l t e).out ++ (emit limit s l t e).saved.toList).Sublist
      (shownOf s.out ++ s.saved.toList ++ [(l, t)]) := by
  have key : ∀ s' : Reporter, Inv limit s' →
      s' = (if e then { s with numerrors := s.numerrors + 1 } else s) →
      s'.mcount = s.mcount → s'.saved = s.saved → s'.out = s.out → s'.log = s.log →
      s'.numerrors = s.numerrors + (if e then 1 else 0) → 
      (Inv limit (emit limit s l t e) ∧
    total (emit limit s l t e) + pending limit (emit limit s l t e) = total s' + pending limit s' + 1 ∧
    (emit limit s l t e).log = s'.log ∧
    (emit limit s l t e).numerrors = s'.numerrors ∧
    (shownOf (emit limit s l t e).out ++ (emit limit s l t e).saved.toList).Sublist
      (shownOf s'.out ++ s'.saved.toList ++ [(l, t)])) := by
    intro s' hi hs' _ _ _ _ _
    unfold emit
    rw [← hs']
    clear hs'
    dsimp only
    by_cases hl : limit < 0
    · obtain ⟨h1, h2, h3⟩ := hi
      simp only [hl, if_true, print]
      refine ⟨⟨h1, h2, h3⟩, ?_, by simp, by simp, ?_⟩
      · simp [total, pending, hl, shownOf_append, announced_append, shownOf, announced]; omega
      · simp [shownOf_append, h2 hl, shownOf]
    · have hl' : 0 ≤ limit := by omega
      simp only [hl, if_false]
      split
      · obtain ⟨h1, h2, h3⟩ := hi
        have h3 := h3 hl'
        split
        · rename_i hm
          have hs : s'.saved = none := h3.2 (by omega)
          simp only [limitmessage]
          rw [if_neg (by simp <;> omega)]
          refine ⟨⟨by simp <;> omega, by simp <;> omega, ?_⟩, ?_, by simp, by simp, ?_⟩
          · simp; omega
          · simp [total, pending, hl]; omega
          · simp [hs]
        · split
          · rename_i hm hm'
            refine ⟨⟨by simp <;> omega, by simpa using h2, ?_⟩, ?_, by simp, by simp, ?_⟩
            · simp; rw [h3]; omega
            · simp [total, pending, hl]; omega
            · simp
          · rename_i hm hm'
            have hs : s'.saved = none := h3.2 (by omega)
            simp only [print]
            refine ⟨⟨by simp <;> omega, by simpa using h2, ?_⟩, ?_, by simp, by simp, ?_⟩
            · simp; rw [h3]; omega
            · simp [total, pending, hl, shownOf_append, announced_append, shownOf, announced]; omega
            · simp [hs, shownOf_append, shownOf]
      · obtain ⟨⟨c1, c2, c3⟩, cp, cm, cs, ct, _, clog, cn, csub⟩ := cleanup_spec hi
        simp only [print]
        refine ⟨⟨by simp, by simpa using c2, ?_⟩, ?_, ?_, ?_, ?_⟩
        · simp [cs, hl']
        · have : total (cleanup limit s') = total s' + pending limit s' := ct
          unfold total at this ⊢
          simp [pending, hl, shownOf_append, announced_append, shownOf, announced]
          simp [pending, hl] at this
          omega
        · simpa using clog
        · simpa using cn
        · simp [shownOf_append, shownOf, cs]
          rw [← List.append_assoc]
          exact List.Sublist.append csub (List.Sublist.refl _)
  have := key (if e then { s with numerrors := s.numerrors + 1 } else s)
  cases e
  · simpa using this (by simpa using h) rfl
  · simpa [total, pending] using this (by simpa [Inv] using h) rfl

theorem run_spec {limit : Int} (es : List Event) (s : Reporter) (h : Inv limit s) :
    Inv limit (run limit s es) ∧
    total (run limit s es) + pending limit (run limit s es) =
      total s + pending limit s + (freshFrom s.log es).length ∧
    (run limit s es).numerrors = s.numerrors + warnings (freshFrom s.log es) ∧
    (shownOf (run limit s es).out ++ (run limit s es).saved.toList).Sublist
      (shownOf s.out ++ s.saved.toList ++ (freshFrom s.log es).map fun m => (m.1, m.2.1)) := by
  induction es generalizing s with
  | nil => simp [run, freshFrom, warnings, h]
  | cons ev es ih =>
    simp only [run, List.foldl_cons] at ih ⊢
    cases ev with
    | cleanup =>
      obtain ⟨c1, cp, cm, cs, ct, _, clog, cn, csub⟩ := cleanup_spec h
      obtain ⟨i1, i2, i3, i4⟩ := ih (cleanup limit s) c1
      simp only [step, freshFrom]
      rw [clog] at i2 i3 i4
      refine ⟨i1, by omega, by omega, i4.trans ?_⟩
      rw [cs]
      simpa using List.Sublist.append csub (List.Sublist.refl _)
    | msg l t e =>
      simp only [step, freshFrom]
      rcases ha : MessageLog.add s.log l t with ⟨log, b⟩
      cases b with
      | false =>
        have := ih { s with log := log } (by simpa [Inv] using h)
        simpa [total, pending] using this
      | true =>
        have h' : Inv limit { s with log := log } := by simpa [Inv] using h
        obtain ⟨e1, e2, e3, e4, e5⟩ := emit_spec h' l t e
        obtain ⟨i1, i2, i3, i4⟩ := ih _ e1
        dsimp only at e2 e3 e4 e5 ⊢
        rw [e3] at i2 i3 i4
        refine ⟨i1, ?_, ?_, i4.trans ?_⟩
        · simp [total, pending] at i2 e2 ⊢; omega
        · rw [i3, e4]
          simp only [if_true, warnings, List.filter_cons]
          cases e <;> simp <;> omega
        · simp only [if_true, List.map_cons]
          refine (List.Sublist.append e5 (List.Sublist.refl _)).trans ?_
          simp

/-! ### Groups -/

/-- Emit a list of messages. -/
def emits (limit : Int) (s : Reporter) (ms : List (FileLoc × Bytes × Bool)) : Reporter :=
  ms.foldl (fun s m => emit limit s m.1 m.2.1 m.2.2) s

theorem emit_log (limit : Int) (s : Reporter) (log : List MsgEntry) (l : FileLoc) (t : Bytes)
    (e : Bool) : emit limit { s with log := log } l t e = { emit limit s l t e with log := log } := by
  unfold emit cleanup limitmessage print
  cases e <;> dsimp only <;> (repeat' split) <;> simp_all

theorem emits_log (limit : Int) (s : Reporter) (log : List MsgEntry) (ms) :
    emits limit { s with log := log } ms = { emits limit s ms with log := log } := by
  induction ms generalizing s with
  | nil => rfl
  | cons m ms ih => simp only [emits, List.foldl_cons] at ih ⊢; rw [emit_log, ih]

theorem run_no_cleanup (limit : Int) (es : List Event) (h : Event.cleanup ∉ es) (s : Reporter) :
    ∃ log, run limit s es = { emits limit s (freshFrom s.log es) with log := log } := by
  induction es generalizing s with
  | nil => exact ⟨s.log, rfl⟩
  | cons ev es ih =>
    have h' : Event.cleanup ∉ es := fun hc => h (by simp [hc])
    cases ev with
    | cleanup => simp at h
    | msg l t e =>
      simp only [run, List.foldl_cons, step, freshFrom] at ih ⊢
      rcases ha : MessageLog.add s.log l t with ⟨log, b⟩
      cases b with
      | false =>
        obtain ⟨lg, hlg⟩ := ih h' { s with log := log }
        refine ⟨lg, ?_⟩
        dsimp only
        rw [hlg, emits_log]; simp
      | true =>
        obtain ⟨lg, hlg⟩ := ih h' (emit limit { s with log := log } l t e)
        refine ⟨lg, ?_⟩
        dsimp only
        rw [hlg]
        have : (emit limit { s with log := log } l t e).log = log := by rw [emit_log]
        rw [this, emit_log, emits_log]
        simp [emits]

theorem cstring_equal_some (a b : Bytes) : cstring_equal (some a) (some b) = decide (a = b) := by
  simp only [cstring_equal]
  by_cases h : a = b
  · simp [h, strcmp_self]
  · simp [h, strcmp_eq_zero]

/-- State in the middle of a group: `g` has been emitted since the output was `out0`. -/
def Mid (limit : Nat) (out0 : List OutItem) (t : Bytes) (g : List (FileLoc × Bytes × Bool))
    (s : Reporter) : Prop :=
  s.lastmsg = some t ∧ s.mcount = (g.length : Int) - 1 ∧
  s.saved = (g[limit + 1]?).map (fun m => (m.1, m.2.1)) ∧
  s.out = out0 ++ (g.take (limit + 1)).map (fun m => .shown m.1 m.2.1)

theorem mid_step {limit : Nat} {out0 t g s} (h : Mid limit out0 t g s) (hg : g ≠ [])
    (m : FileLoc × Bytes × Bool) (hm : m.2.1 = t) :
    Mid limit out0 t (g ++ [m]) (emit limit s m.1 m.2.1 m.2.2) := by
  obtain ⟨h1, h2, h3, h4⟩ := h
  have hgl : 0 < g.length := List.length_pos_iff.2 hg
  have hc : ∀ n : Int, cstring_equal s.lastmsg (some m.2.1) = true := by
    intro _; rw [h1, cstring_equal_some]; simp [hm]
  have hneg : ¬ ((limit : Int) < 0) := by omega
  have step : ∀ s' : Reporter, s'.lastmsg = s.lastmsg → s'.mcount = s.mcount → s'.saved = s.saved →
      s'.out = s.out → Mid limit out0 t (g ++ [m])
        (if s'.mcount + 1 = (limit : Int) + 1 then
            limitmessage limit { s' with mcount := s'.mcount + 1 } m.1 m.2.1
          else if s'.mcount + 1 > (limit : Int) then { s' with mcount := s'.mcount + 1 }
          else ({ s' with mcount := s'.mcount + 1 }).print m.1 m.2.1) := by
    intro s' e1 e2 e3 e4
    split
    · rename_i hc
      have hlen : g.length = limit + 1 := by omega
      simp only [limitmessage]
      rw [if_neg (by simp <;> omega)]
      refine ⟨by simp [e1, h1], by simp <;> omega, ?_, ?_⟩
      · rw [List.getElem?_append_right (by omega)]; simp [hlen]
      · dsimp only
        rw [e4, h4, List.take_append_of_le_length (by omega)]
    · split
      · rename_i hc1 hc2
        refine ⟨by simp [e1, h1], by simp <;> omega, ?_, ?_⟩
        · dsimp only
          rw [e3, h3, List.getElem?_append_left (by omega)]
        · dsimp only
          rw [e4, h4, List.take_append_of_le_length (by omega)]
      · rename_i hc1 hc2
        have hlen : g.length < limit + 1 := by omega
        refine ⟨by simp [print, e1, h1], by simp [print]; omega, ?_, ?_⟩
        · simp only [print]
          rw [e3, h3, List.getElem?_eq_none (by omega), List.getElem?_eq_none (by simp <;> omega)]
        · simp only [print]
          rw [e4, h4, List.take_of_length_le (by omega), List.take_of_length_le (by simp <;> omega)]
          simp
  unfold emit
  simp only [hneg, if_false]
  cases he : m.2.2
  · simpa [he, hc 0] using step s rfl rfl rfl rfl
  · have := step { s with numerrors := s.numerrors + 1 } rfl rfl rfl rfl
    simpa [he, hc 0] using this

theorem mid_emits {limit : Nat} {out0 t} (ms : List (FileLoc × Bytes × Bool))
    (hms : ∀ m ∈ ms, m.2.1 = t) : ∀ {g s}, Mid limit out0 t g s → g ≠ [] →
    Mid limit out0 t (g ++ ms) (emits limit s ms) := by
  induction ms with
  | nil => intro g s h _; simpa [emits] using h
  | cons m ms ih =>
    intro g s h hg
    have := ih (fun x hx => hms x (by simp [hx])) (mid_step h hg m (hms m (by simp))) (by simp)
    simpa [emits] using this

theorem mid_first {limit : Nat} {s : Reporter} (hi : Inv limit s) (m : FileLoc × Bytes × Bool)
    (ht : m.2.1 ≠ []) (hne : s.lastmsg ≠ some m.2.1) :
    Mid limit (cleanup limit s).out m.2.1 [m] (emit limit s m.1 m.2.1 m.2.2) := by
  have hc : cstring_equal s.lastmsg (some m.2.1) = false := by
    rcases hs : s.lastmsg with _ | b
    · simp [cstring_equal, cstring_isEmpty, ht]
    · rw [cstring_equal_some]; rw [hs] at hne; simpa using hne
  have hneg : ¬ ((limit : Int) < 0) := by omega
  have cn : ∀ k : Int, (cleanup limit { s with numerrors := k }).out = (cleanup limit s).out := by
    intro k; unfold cleanup; dsimp only; repeat' split
    all_goals simp_all
  have hsv := (cleanup_spec hi).2.2.2.1
  have hi' : Inv limit { s with numerrors := s.numerrors + 1 } := by simpa [Inv] using hi
  have hsv' := (cleanup_spec hi').2.2.2.1
  unfold emit
  simp only [hneg, if_false]
  cases he : m.2.2
  · simp [hc, Mid, print, hsv]
  · simp [hc, Mid, print, hsv', cn]

theorem cleanup_mid {limit : Nat} {out0 t g} {s1 : Reporter} (h : Mid limit out0 t g s1) :
    (cleanup limit s1).out = out0 ++ groupOutput limit g := by
  obtain ⟨l1, l2, l3, l4⟩ := h
  have hneg : ¬ ((limit : Int) < 0) := by omega
  unfold cleanup groupOutput
  simp only [hneg, if_false]
  by_cases hu : s1.mcount - (limit : Int) > 0
  · rw [if_pos hu]
    have hlt : limit + 1 < g.length := by omega
    have hsv : s1.saved = some (g[limit + 1].1, g[limit + 1].2.1) := by
      rw [l3, List.getElem?_eq_getElem hlt]; rfl
    rw [hsv]
    dsimp only
    by_cases h1 : s1.mcount - (limit : Int) = 1
    · rw [if_pos h1, if_pos (by omega)]
      dsimp only
      rw [l4]
      have : g = g.take (limit + 1) ++ [g[limit + 1]] := by
        rw [← List.take_succ_eq_append_getElem hlt, List.take_of_length_le (by omega)]
      have e := congrArg (List.map fun m : FileLoc × Bytes × Bool => OutItem.shown m.1 m.2.1) this
      rw [e, List.map_append]
      simp only [List.map_cons, List.map_nil, List.append_assoc]
    · rw [if_neg h1, if_neg (by omega)]
      dsimp only
      rw [l4, l2]
      have : (g.length : Int) - 1 - limit = g.length - (limit + 1) := by omega
      rw [this, List.append_assoc]
  · rw [if_neg hu, if_pos (by omega)]
    dsimp only
    rw [l4, List.take_of_length_le (by omega)]

theorem group_cleanup {limit : Nat} {s : Reporter} (hi : Inv limit s)
    (g : List (FileLoc × Bytes × Bool)) (hg : g ≠ []) (t : Bytes) (ht : t ≠ [])
    (hgt : ∀ m ∈ g, m.2.1 = t) (hne : s.lastmsg ≠ some t) :
    (cleanup limit (emits limit s g)).out = (cleanup limit s).out ++ groupOutput limit g ∧
    (emits limit s g).lastmsg = some t ∧ Inv limit (emits limit s g) := by
  obtain ⟨m, ms, rfl⟩ := List.exists_cons_of_ne_nil hg
  have hm : m.2.1 = t := hgt m (by simp)
  have h1 := mid_first hi m (by rw [hm]; exact ht) (by rw [hm]; exact hne)
  rw [hm] at h1
  have h2 := mid_emits ms (fun x hx => hgt x (by simp [hx])) h1 (by simp)
  have h3 : Mid limit (cleanup limit s).out t (m :: ms) (emits limit s (m :: ms)) := by
    simpa [emits, hm] using h2
  have hiv : Inv limit (emits limit s (m :: ms)) := by
    have : ∀ (ms : List (FileLoc × Bytes × Bool)) (s : Reporter), Inv limit s →
        Inv limit (emits limit s ms) := by
      intro ms
      induction ms with
      | nil => intro s h; exact h
      | cons x xs ih => intro s h; exact ih _ (emit_spec h x.1 x.2.1 x.2.2).1
    exact this _ _ hi
  exact ⟨cleanup_mid h3, h3.1, hiv⟩

theorem groups_cleanup {limit : Nat} (gs : List (List (FileLoc × Bytes × Bool))) :
    ∀ {s : Reporter}, Inv limit s → Groups s.lastmsg gs →
    (cleanup limit (emits limit s gs.flatten)).out =
      (cleanup limit s).out ++ gs.flatMap (groupOutput limit) := by
  induction gs with
  | nil => intro s _ _; simp [emits]
  | cons g gs ih =>
    rintro s hi ⟨t, ht, hp, hg, hgt, hrest⟩
    obtain ⟨h1, h2, h3⟩ := group_cleanup hi g hg t ht hgt hp
    have := ih h3 (by rw [h2]; exact hrest)
    simp only [List.flatten_cons, List.flatMap_cons]
    rw [← List.append_assoc, ← h1, ← this]
    simp [emits, List.foldl_append]

end Reporter
end Splint
