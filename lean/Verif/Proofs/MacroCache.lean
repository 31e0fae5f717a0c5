import Verif.Spec.MacroCache
import Verif.Proofs.MessageLog
import Mathlib.Data.List.Nodup
import Mathlib.Data.List.Induction
namespace Splint.MacroCache
open Spec (place Ordinary)
open MessageLog (loc_equal_iff)

abbrev Pl := Option (Int × Int × Int)

/-! ## The list of first registrations -/

theorem firsts_append (seen : List Pl) (regs : List Reg) (r : Reg) :
    firsts seen (regs ++ [r]) =
      if place r.fl ∈ seen ∨ place r.fl ∈ regs.map (place ·.fl) then firsts seen regs else firsts seen regs ++ [r] := by
  induction regs generalizing seen with
  | nil => by_cases h : place r.fl ∈ seen <;> simp [firsts, h]
  | cons a rs ih =>
    by_cases h : place a.fl ∈ seen
    · have : (place r.fl ∈ seen ∨ place r.fl ∈ (a :: rs).map (place ·.fl)) ↔ (place r.fl ∈ seen ∨ place r.fl ∈ rs.map (place ·.fl)) := by
        rw [List.map_cons, List.mem_cons]
        constructor
        · rintro (h1 | h1 | h1)
          · exact .inl h1
          · exact .inl (h1 ▸ h)
          · exact .inr h1
        · rintro (h1 | h1)
          · exact .inl h1
          · exact .inr (.inr h1)
      simp only [List.cons_append, firsts, if_pos h, ih, this]
    · have : (place r.fl ∈ seen ∨ place r.fl ∈ (a :: rs).map (place ·.fl)) ↔
          (place r.fl ∈ place a.fl :: seen ∨ place r.fl ∈ rs.map (place ·.fl)) := by
        rw [List.map_cons, List.mem_cons, List.mem_cons]; tauto
      simp only [List.cons_append, firsts, if_neg h, ih, this]
      split <;> rfl

theorem firsts_places (seen : List Pl) (regs : List Reg) (p : Pl) :
    p ∈ (firsts seen regs).map (place ·.fl) ↔ p ∈ regs.map (place ·.fl) ∧ p ∉ seen := by
  induction regs generalizing seen with
  | nil => simp [firsts]
  | cons a rs ih =>
    by_cases h : place a.fl ∈ seen
    · rw [firsts, if_pos h, ih, List.map_cons, List.mem_cons]
      constructor
      · rintro ⟨h1, h2⟩; exact ⟨.inr h1, h2⟩
      · rintro ⟨h1 | h1, h2⟩
        · exact absurd (h1 ▸ h) h2
        · exact ⟨h1, h2⟩
    · rw [firsts, if_neg h, List.map_cons, List.mem_cons, ih, List.map_cons, List.mem_cons, List.mem_cons]
      constructor
      · rintro (h1 | ⟨h1, h2⟩)
        · exact ⟨.inl h1, h1 ▸ h⟩
        · exact ⟨.inr h1, fun h3 => h2 (.inr h3)⟩
      · rintro ⟨h1 | h1, h2⟩
        · exact .inl h1
        · by_cases h3 : p = place a.fl
          · exact .inl h3
          · exact .inr ⟨h1, by rintro (h4 | h4); exacts [h3 h4, h2 h4]⟩

theorem firsts_nodup (seen : List Pl) (regs : List Reg) : ((firsts seen regs).map (place ·.fl)).Nodup := by
  induction regs generalizing seen with
  | nil => simp [firsts]
  | cons a rs ih =>
    by_cases h : place a.fl ∈ seen
    · rw [firsts, if_pos h]; exact ih _
    · rw [firsts, if_neg h, List.map_cons, List.nodup_cons]
      refine ⟨fun h1 => ((firsts_places _ _ _).1 h1).2 (List.mem_cons_self ..), ih _⟩

theorem firsts_mem (seen : List Pl) (regs : List Reg) (r : Reg) (h : r ∈ firsts seen regs) : r ∈ regs := by
  induction regs generalizing seen with
  | nil => simp [firsts] at h
  | cons a rs ih =>
    by_cases h1 : place a.fl ∈ seen
    · rw [firsts, if_pos h1] at h; exact List.mem_cons_of_mem _ (ih _ h)
    · rw [firsts, if_neg h1, List.mem_cons] at h
      rcases h with rfl | h
      · exact List.mem_cons_self ..
      · exact List.mem_cons_of_mem _ (ih _ h)

theorem latest_append (fl : FileLoc) (t : String) (regs : List Reg) (r : Reg) :
    latest fl t (regs ++ [r]) = if place r.fl = place fl then r.text else latest fl t regs := by
  induction regs generalizing t with
  | nil => simp [latest]
  | cons a rs ih =>
    by_cases h : place a.fl = place fl <;> simp only [List.cons_append, latest, h, if_true, if_false, ih]

/-! ## The entries -/

/-- the entry for a first registration -/
def ent (regs : List Reg) (done : List Pl) (r : Reg) : Entry :=
  ⟨r.fl, latest r.fl r.text regs, decide (place r.fl ∈ done), r.comment⟩

structure Inv (regs : List Reg) (done : List Pl) (s : Cache) : Prop where
  entries : s.entries = (firsts [] regs).map (ent regs done)
  ord : ∀ r ∈ regs, Ordinary r.fl
  done : ∀ p ∈ done, p ∈ regs.map (place ·.fl)
  space : s.entries.length + s.nspace ≤ s.alloc
  on : s.disabled = false

theorem inv_create : Inv [] [] create :=
  ⟨rfl, by simp, by simp, by decide, rfl⟩

theorem replace_spec (fl : FileLoc) (hf : Ordinary fl) (t : String) (es : List Entry) (ho : ∀ e ∈ es, Ordinary e.fl)
    (hn : (es.map (place ·.fl)).Nodup) :
    replace fl t es = if place fl ∈ es.map (place ·.fl)
      then some (es.map fun e => if place fl = place e.fl then { e with text := t } else e) else none := by
  induction es with
  | nil => simp [replace]
  | cons e es ih =>
    have he := ho e (List.mem_cons_self ..)
    rw [List.map_cons, List.nodup_cons] at hn
    have := ih (fun x hx => ho x (List.mem_cons_of_mem _ hx)) hn.2
    by_cases h : place e.fl = place fl
    · rw [replace, if_pos ((loc_equal_iff he hf).2 h), if_pos (by rw [List.map_cons, h]; exact List.mem_cons_self ..)]
      rw [List.map_cons, if_pos h.symm]
      congr 2
      rw [List.map_congr_left (g := id), List.map_id]
      intro x hx
      rw [if_neg]; rfl
      intro h2
      exact hn.1 (List.mem_map.2 ⟨x, hx, by rw [← h2, h]⟩)
    · have hne : ¬ e.fl.equal fl = true := fun h2 => h ((loc_equal_iff he hf).1 h2)
      rw [replace, if_neg hne, this]
      by_cases h2 : place fl ∈ es.map (place ·.fl)
      · rw [if_pos h2, if_pos (by rw [List.map_cons]; exact List.mem_cons_of_mem _ h2), List.map_cons, if_neg (Ne.symm h)]
        rfl
      · rw [if_neg h2, if_neg]; rfl
        rw [List.map_cons, List.mem_cons]
        rintro (h3 | h3)
        · exact h h3.symm
        · exact h2 h3

theorem ent_places (regs : List Reg) (done : List Pl) (l : List Reg) :
    (l.map (ent regs done)).map (place ·.fl) = l.map (place ·.fl) := by
  rw [List.map_map]; rfl

theorem put_some {s : Cache} {e : Entry} (h : s.entries.length + s.nspace ≤ s.alloc) (h2 : 0 < s.nspace) :
    put s e = some { s with entries := s.entries ++ [e], nspace := s.nspace - 1 } := by
  rw [put, if_pos (by omega)]

theorem inv_add {regs : List Reg} {done : List Pl} {s : Cache} (h : Inv regs done s) (r : Reg) (hr : Ordinary r.fl) :
    ∃ s', add s r.fl r.text r.comment = some s' ∧ Inv (regs ++ [r]) done s' := by
  have hord : ∀ x ∈ regs ++ [r], Ordinary x.fl := by
    intro x hx
    rcases List.mem_append.1 hx with hx | hx
    · exact h.ord x hx
    · rw [List.mem_singleton] at hx; exact hx ▸ hr
  have hdone : ∀ p ∈ done, p ∈ (regs ++ [r]).map (place ·.fl) := by
    intro p hp
    rw [List.map_append]; exact List.mem_append_left _ (h.done p hp)
  have hrep := replace_spec r.fl hr r.text s.entries
    (by
      rw [h.entries]; intro e he
      obtain ⟨x, hx, rfl⟩ := List.mem_map.1 he
      exact h.ord x (firsts_mem _ _ _ hx))
    (by rw [h.entries, ent_places]; exact firsts_nodup _ _)
  have hpl : place r.fl ∈ s.entries.map (place ·.fl) ↔ place r.fl ∈ regs.map (place ·.fl) := by
    rw [h.entries, ent_places, firsts_places]; simp
  rw [add, if_neg (by rw [h.on]; decide), hrep]
  by_cases hin : place r.fl ∈ regs.map (place ·.fl)
  · rw [if_pos (hpl.2 hin)]
    refine ⟨_, rfl, ?_, hord, hdone, ?_, h.on⟩
    · show List.map _ s.entries = _
      rw [firsts_append, if_pos (.inr hin), h.entries, List.map_map]
      apply List.map_congr_left
      intro x _
      by_cases hx : place r.fl = place x.fl <;> simp [ent, latest_append, hx]
    · show (List.map _ s.entries).length + _ ≤ _
      rw [List.length_map]; exact h.space
  · rw [if_neg (fun h2 => hin (hpl.1 h2))]
    have hnew : s.entries ++ [⟨r.fl, r.text, false, r.comment⟩] = (firsts [] (regs ++ [r])).map (ent (regs ++ [r]) done) := by
      rw [firsts_append, if_neg (by simpa using hin), List.map_append, h.entries]
      congr 1
      · apply List.map_congr_left
        intro x hx
        simp only [ent, latest_append]
        rw [if_neg]
        intro h2
        exact hin (List.mem_map.2 ⟨x, firsts_mem _ _ _ hx, h2.symm⟩)
      · simp only [List.map_cons, List.map_nil, ent, latest_append, if_true]
        rw [decide_eq_false (fun h2 => hin (h.done _ h2))]
    have hsp := h.space
    dsimp only
    by_cases hz : s.nspace ≤ 0
    · rw [if_pos hz, put_some (s := grow s) (by simp only [grow]; omega) (by simp [grow, baseSize])]
      refine ⟨_, rfl, hnew, hord, hdone, ?_, h.on⟩
      simp only [grow, List.length_append, List.length_singleton, baseSize]; omega
    · rw [if_neg hz, put_some hsp (by omega)]
      refine ⟨_, rfl, hnew, hord, hdone, ?_, h.on⟩
      simp only [List.length_append, List.length_singleton]; omega

/-! ## A pass -/

/-- what a pass does, without its loop -/
def process (want : FileLoc → Bool) : List Entry → List Entry × List Checked
  | [] => ([], [])
  | e :: es =>
    let r := process want es
    if e.defined then (e :: r.1, r.2)
    else if want e.fl then ({ e with defined := true } :: r.1, ⟨e.fl, e.text, e.comment⟩ :: r.2)
    else (e :: r.1, r.2)

theorem addAll_disabled (s : Cache) (h : s.disabled = true) (l : List (FileLoc × String × Bool)) : addAll s l = some s := by
  induction l with
  | nil => rfl
  | cons x l ih =>
    obtain ⟨fl, t, c⟩ := x
    rw [addAll, add, if_pos h]; exact ih

theorem loop_process (want : FileLoc → Bool) (during : During) (todo : List Entry) :
    ∀ (n : Nat) (pre : List Entry) (s : Cache), s.disabled = true → s.entries = pre ++ todo → todo.length < n →
      loop want during n pre.length s =
        some ({ s with entries := pre ++ (process want todo).1 }, (process want todo).2) := by
  induction todo with
  | nil =>
    intro n pre s hd he hn
    obtain ⟨n, rfl⟩ : ∃ m, n = m + 1 := ⟨n - 1, by simp at hn; omega⟩
    have : s.entries[pre.length]? = none := by rw [he]; simp
    rw [loop, this]
    simp only [process, ← he]
  | cons e es ih =>
    intro n pre s hd he hn
    obtain ⟨n, rfl⟩ : ∃ m, n = m + 1 := ⟨n - 1, by simp at hn; omega⟩
    have hi : s.entries[pre.length]? = some e := by rw [he]; simp
    have hl : es.length < n := by simpa using hn
    have hlen : ∀ x : Entry, (pre ++ [x]).length = pre.length + 1 := by simp
    rw [loop, hi, process]
    dsimp only
    by_cases h1 : e.defined = true
    · rw [if_pos h1, if_pos h1]
      have := ih n (pre ++ [e]) s hd (by simp [he]) hl
      rw [hlen] at this
      rw [this]; simp
    · rw [if_neg h1, if_neg h1]
      by_cases h2 : want e.fl = true
      · rw [if_pos h2, if_pos h2, addAll_disabled _ (by exact hd)]
        have := ih n (pre ++ [{ e with defined := true }])
          { s with entries := s.entries.set pre.length { e with defined := true } } hd (by simp [he]) hl
        rw [hlen] at this
        dsimp only
        rw [this]; simp
      · rw [if_neg h2, if_neg h2]
        have := ih n (pre ++ [e]) s hd (by simp [he]) hl
        rw [hlen] at this
        rw [this]; simp

theorem pass_eq (want : FileLoc → Bool) (during : During) (s : Cache) :
    pass want during s = some ({ s with entries := (process want s.entries).1, disabled := false }, (process want s.entries).2) := by
  have := loop_process want during s.entries (s.entries.length + 1) [] { s with disabled := true } rfl rfl (by omega)
  rw [List.length_nil] at this
  rw [pass, this]
  rfl

theorem process_out (want : FileLoc → Bool) (regs : List Reg) (done : List Pl) (l : List Reg) :
    (process want (l.map (ent regs done))).2 =
      (l.filter fun r => decide (place r.fl ∉ done) && want r.fl).map fun r => ⟨r.fl, latest r.fl r.text regs, r.comment⟩ := by
  induction l with
  | nil => rfl
  | cons r l ih =>
    rw [List.map_cons, process, List.filter_cons]
    by_cases h : place r.fl ∈ done
    · simp [ent, h]; simpa [ent] using ih
    · by_cases h2 : want r.fl = true
      · simp [ent, h, h2]; simpa [ent] using ih
      · simp [ent, h, h2]; simpa [ent] using ih

theorem process_entries (want : FileLoc → Bool) (regs : List Reg) (done : List Pl) (l : List Reg) :
    (process want (l.map (ent regs done))).1 =
      l.map fun r => ⟨r.fl, latest r.fl r.text regs, decide (place r.fl ∈ done) || want r.fl, r.comment⟩ := by
  induction l with
  | nil => rfl
  | cons r l ih =>
    rw [List.map_cons, process]
    by_cases h : place r.fl ∈ done
    · simp [ent, h]; simpa [ent] using ih
    · by_cases h2 : want r.fl = true
      · simp [ent, h, h2]; simpa [ent] using ih
      · simp [ent, h, h2]; simpa [ent] using ih

theorem due_places (want : FileLoc → Bool) (regs : List Reg) (done : List Pl) :
    (due want regs done).map (place ·.fl) =
      ((firsts [] regs).filter fun r => decide (place r.fl ∉ done) && want r.fl).map (place ·.fl) := by
  rw [due, List.map_map]; rfl

theorem inv_pass {regs : List Reg} {done : List Pl} {s : Cache} (h : Inv regs done s) (want : FileLoc → Bool) :
    (process want s.entries).2 = due want regs done ∧
    Inv regs (done ++ (due want regs done).map (place ·.fl)) { s with entries := (process want s.entries).1, disabled := false } := by
  refine ⟨by rw [h.entries, process_out]; rfl, ?_, h.ord, ?_, ?_, rfl⟩
  · show (process want s.entries).1 = _
    rw [h.entries, process_entries]
    apply List.map_congr_left
    intro r hr
    rw [ent]
    congr 1
    rw [Bool.eq_iff_iff, Bool.or_eq_true, decide_eq_true_eq, decide_eq_true_eq, List.mem_append, due_places]
    by_cases hd : place r.fl ∈ done
    · simp [hd]
    · simp only [hd, false_or]
      constructor
      · intro hw
        exact List.mem_map.2 ⟨r, List.mem_filter.2 ⟨hr, by simp [hd, hw]⟩, rfl⟩
      · intro hm
        obtain ⟨x, hx, hp⟩ := List.mem_map.1 hm
        rw [List.mem_filter] at hx
        have : x = r := List.inj_on_of_nodup_map (firsts_nodup [] regs) hx.1 hr hp
        subst this
        simpa [hd] using hx.2
  · intro p hp
    rcases List.mem_append.1 hp with hp | hp
    · exact h.done p hp
    · rw [due_places] at hp
      obtain ⟨x, hx, rfl⟩ := List.mem_map.1 hp
      exact List.mem_map.2 ⟨x, firsts_mem _ _ _ (List.mem_filter.1 hx).1, rfl⟩
  · show (process want s.entries).1.length + _ ≤ _
    rw [h.entries, process_entries, List.length_map]
    have := h.space
    rwa [h.entries, List.length_map] at this

/-! ## Histories -/

theorem run_ideal (S : Sys) (es : List Ev) (regs : List Reg) (done : List Pl) (s : Cache)
    (h : Inv regs done s) (ho : ∀ r ∈ regsOf es, Ordinary r.fl) :
    ∃ s', run S s es = some (s', ideal S regs done es) := by
  induction es generalizing regs done s with
  | nil => exact ⟨s, rfl⟩
  | cons e es ih =>
    cases e with
    | add fl t c =>
      obtain ⟨s1, h1, h2⟩ := inv_add h ⟨fl, t, c⟩ (ho ⟨fl, t, c⟩ (List.mem_cons_self ..))
      obtain ⟨s2, h3⟩ := ih _ _ _ h2 fun r hr => ho r (List.mem_cons_of_mem _ hr)
      dsimp only at h1
      exact ⟨s2, by rw [run, h1]; exact h3⟩
    | file b =>
      obtain ⟨h1, h2⟩ := inv_pass h fun fl => S.base fl == b
      obtain ⟨s2, h3⟩ := ih _ _ _ h2 ho
      refine ⟨s2, ?_⟩
      simp [run, processFile, pass_eq, h3, h1, ideal]
    | all =>
      cases hp : S.partial_ with
      | true =>
        obtain ⟨s2, h3⟩ := ih regs (done ++ []) { s with disabled := false }
          ⟨h.entries.trans (by rw [List.append_nil]), h.ord, by rw [List.append_nil]; exact h.done, h.space, rfl⟩ ho
        exact ⟨s2, by simpa [run, processUndefined, hp, ideal] using h3⟩
      | false =>
        obtain ⟨h1, h2⟩ := inv_pass h fun _ => true
        obtain ⟨s2, h3⟩ := ih _ _ _ h2 ho
        refine ⟨s2, ?_⟩
        simp [run, processUndefined, pass_eq, hp, h3, h1, ideal]

/-! ## Facts about what is to be checked -/

theorem due_nodup (want : FileLoc → Bool) (regs : List Reg) (done : List Pl) :
    ((due want regs done).map (place ·.fl)).Nodup := by
  rw [due_places]
  exact (firsts_nodup [] regs).sublist (List.filter_sublist.map _)

theorem due_not_done {want : FileLoc → Bool} {regs : List Reg} {done : List Pl} {p : Pl}
    (h : p ∈ (due want regs done).map (place ·.fl)) : p ∉ done := by
  rw [due_places] at h
  obtain ⟨x, hx, rfl⟩ := List.mem_map.1 h
  have := (List.mem_filter.1 hx).2
  simp only [Bool.and_eq_true, decide_eq_true_eq] at this
  exact this.1

theorem now_nodup_ideal (S : Sys) (es : List Ev) (regs : List Reg) (done : List Pl) :
    ((ideal S regs done es).map (place ·.fl)).Nodup ∧ ∀ q ∈ (ideal S regs done es).map (place ·.fl), q ∉ done := by
  induction es generalizing regs done with
  | nil => simp [ideal]
  | cons e es ih =>
    have key : ∀ now : List Checked, (now.map (place ·.fl)).Nodup → (∀ q ∈ now.map (place ·.fl), q ∉ done) →
        ((now ++ ideal S regs (done ++ now.map (place ·.fl)) es).map (place ·.fl)).Nodup ∧
        ∀ q ∈ (now ++ ideal S regs (done ++ now.map (place ·.fl)) es).map (place ·.fl), q ∉ done := by
      intro now hn hd
      obtain ⟨h1, h2⟩ := ih regs (done ++ now.map (place ·.fl))
      rw [List.map_append]
      refine ⟨List.nodup_append.2 ⟨hn, h1, ?_⟩, ?_⟩
      · intro a ha b hb hab
        exact h2 b hb (List.mem_append_right _ (hab ▸ ha))
      · intro q hq
        rcases List.mem_append.1 hq with hq | hq
        · exact hd q hq
        · exact fun h3 => h2 q hq (List.mem_append_left _ h3)
    cases e with
    | add fl t c => exact ih _ _
    | file b => exact key _ (due_nodup _ _ _) fun q hq => due_not_done hq
    | all =>
      cases hp : S.partial_ with
      | true => simpa [ideal, hp] using key [] (by simp) (by simp)
      | false =>
        have := key (due (fun _ => true) regs done) (due_nodup _ _ _) fun q hq => due_not_done hq
        simpa only [ideal, hp, Bool.false_eq_true, if_false] using this


theorem latest_lastText (r : Reg) (regs : List Reg) (h : place r.fl ∈ regs.map (place ·.fl)) :
    lastText (place r.fl) regs = some (latest r.fl r.text regs) := by
  induction regs using List.reverseRecOn with
  | nil => simp at h
  | append_singleton rs a ih =>
    rw [latest_append, lastText, List.filter_append]
    by_cases h2 : place a.fl = place r.fl
    · simp [h2]
    · rw [List.map_append, List.mem_append] at h
      have h3 : place r.fl ∈ rs.map (place ·.fl) := by
        rcases h with h | h
        · exact h
        · simp at h; exact absurd h.symm h2
      rw [if_neg h2, ← ih h3, lastText]
      simp [h2]

theorem due_text {want : FileLoc → Bool} {regs : List Reg} {done : List Pl} {x : Checked} (h : x ∈ due want regs done) :
    lastText (place x.fl) regs = some x.text := by
  obtain ⟨r, hr, rfl⟩ := List.mem_map.1 h
  exact latest_lastText r regs (List.mem_map.2 ⟨r, firsts_mem _ _ _ (List.mem_filter.1 hr).1, rfl⟩)

/-- the last event adds texts that are current -/
theorem ideal_last (S : Sys) (es : List Ev) (ev : Ev) (regs : List Reg) (done : List Pl) :
    ∃ now, ideal S regs done (es ++ [ev]) = ideal S regs done es ++ now ∧
      ∀ x ∈ now, lastText (place x.fl) (regs ++ regsOf es) = some x.text := by
  induction es generalizing regs done with
  | nil =>
    simp only [List.nil_append, regsOf, List.append_nil]
    cases ev with
    | add fl t c => exact ⟨[], rfl, by simp⟩
    | file b => exact ⟨due (fun fl => S.base fl == b) regs done, by simp [ideal], fun x hx => due_text hx⟩
    | all =>
      refine ⟨if S.partial_ then [] else due (fun _ => true) regs done, by simp [ideal], fun x hx => ?_⟩
      split at hx
      · simp at hx
      · exact due_text hx
  | cons e es ih =>
    cases e with
    | add fl t c =>
      obtain ⟨now, h1, h2⟩ := ih (regs ++ [⟨fl, t, c⟩]) done
      refine ⟨now, h1, ?_⟩
      simpa [regsOf] using h2
    | file b =>
      obtain ⟨now, h1, h2⟩ := ih regs _
      exact ⟨now, by rw [List.cons_append, ideal, ideal, h1, List.append_assoc], h2⟩
    | all =>
      obtain ⟨now, h1, h2⟩ := ih regs _
      exact ⟨now, by rw [List.cons_append, ideal, ideal, h1, List.append_assoc], h2⟩

/-! ## Any positions -/

theorem equal_place {f g : FileLoc} (h : f.equal g = true) : place f = place g := by
  rw [C01_equal_iff] at h
  rcases h with ⟨h1, h2⟩ | ⟨r, s, x, _, _, _, _, h, _⟩
  · rw [h1, h2]
  · exact h

/-- for any positions: registered places have entries, and entries that are done were checked -/
structure Gen (regs : List Reg) (out : List Checked) (s : Cache) : Prop where
  has : ∀ r ∈ regs, ∃ e ∈ s.entries, place e.fl = place r.fl
  out : ∀ e ∈ s.entries, e.defined = true → ∃ x ∈ out, x.fl = e.fl
  space : s.entries.length + s.nspace ≤ s.alloc
  on : s.disabled = false

theorem replace_gen {fl : FileLoc} {t : String} {es es' : List Entry} (h : replace fl t es = some es') :
    (∃ e ∈ es', place e.fl = place fl) ∧ es'.map (fun e => (e.fl, e.defined)) = es.map (fun e => (e.fl, e.defined)) := by
  induction es generalizing es' with
  | nil => simp [replace] at h
  | cons e es ih =>
    rw [replace] at h
    split at h
    · next h1 =>
      cases h
      exact ⟨⟨_, List.mem_cons_self .., equal_place h1⟩, rfl⟩
    · cases h2 : replace fl t es with
      | none => rw [h2] at h; simp at h
      | some es2 =>
        rw [h2] at h; cases h
        obtain ⟨⟨x, hx, hp⟩, h4⟩ := ih h2
        exact ⟨⟨x, List.mem_cons_of_mem _ hx, hp⟩, by rw [List.map_cons, h4, List.map_cons]⟩

theorem gen_add {regs : List Reg} {out : List Checked} {s : Cache} (h : Gen regs out s) (r : Reg) :
    ∃ s', add s r.fl r.text r.comment = some s' ∧ Gen (regs ++ [r]) out s' := by
  rw [add, if_neg (by rw [h.on]; decide)]
  cases hr : replace r.fl r.text s.entries with
  | some es =>
    obtain ⟨h1, h2⟩ := replace_gen hr
    have hm : ∀ e ∈ s.entries, ∃ e' ∈ es, e'.fl = e.fl ∧ e'.defined = e.defined := by
      intro e he
      have : (e.fl, e.defined) ∈ es.map (fun e => (e.fl, e.defined)) := h2 ▸ List.mem_map.2 ⟨e, he, rfl⟩
      obtain ⟨e', he', h3⟩ := List.mem_map.1 this
      exact ⟨e', he', congrArg Prod.fst h3, congrArg Prod.snd h3⟩
    have hm' : ∀ e ∈ es, ∃ e' ∈ s.entries, e'.fl = e.fl ∧ e'.defined = e.defined := by
      intro e he
      have : (e.fl, e.defined) ∈ s.entries.map (fun e => (e.fl, e.defined)) := h2 ▸ List.mem_map.2 ⟨e, he, rfl⟩
      obtain ⟨e', he', h3⟩ := List.mem_map.1 this
      exact ⟨e', he', congrArg Prod.fst h3, congrArg Prod.snd h3⟩
    refine ⟨_, rfl, ?_, ?_, ?_, h.on⟩
    · intro x hx
      rcases List.mem_append.1 hx with hx | hx
      · obtain ⟨e, he, hp⟩ := h.has x hx
        obtain ⟨e', he', h3, _⟩ := hm e he
        exact ⟨e', he', by rw [h3, hp]⟩
      · rw [List.mem_singleton] at hx; subst hx
        exact h1
    · intro e he hd
      obtain ⟨e', he', h3, h4⟩ := hm' e he
      obtain ⟨x, hx, h5⟩ := h.out e' he' (h4.trans hd)
      exact ⟨x, hx, h5.trans h3⟩
    · have : es.length = s.entries.length := by
        have := congrArg List.length h2
        simpa using this
      show es.length + _ ≤ _
      rw [this]; exact h.space
  | none =>
    have hsp := h.space
    have hh : ∀ x ∈ regs ++ [r], ∃ e ∈ s.entries ++ [⟨r.fl, r.text, false, r.comment⟩], place e.fl = place x.fl := by
      intro x hx
      rcases List.mem_append.1 hx with hx | hx
      · obtain ⟨e, he, hp⟩ := h.has x hx
        exact ⟨e, List.mem_append_left _ he, hp⟩
      · rw [List.mem_singleton] at hx; subst hx
        exact ⟨_, List.mem_append_right _ (List.mem_singleton_self _), rfl⟩
    have ho : ∀ e ∈ s.entries ++ [⟨r.fl, r.text, false, r.comment⟩], e.defined = true → ∃ x ∈ out, x.fl = e.fl := by
      intro e he hd
      rcases List.mem_append.1 he with he | he
      · exact h.out e he hd
      · rw [List.mem_singleton] at he; subst he; simp at hd
    dsimp only
    by_cases hz : s.nspace ≤ 0
    · rw [if_pos hz, put_some (s := grow s) (by simp only [grow]; omega) (by simp [grow, baseSize])]
      refine ⟨_, rfl, hh, ho, ?_, h.on⟩
      simp only [grow, List.length_append, List.length_singleton, baseSize]; omega
    · rw [if_neg hz, put_some hsp (by omega)]
      refine ⟨_, rfl, hh, ho, ?_, h.on⟩
      simp only [List.length_append, List.length_singleton]; omega

theorem process_gen (want : FileLoc → Bool) (es : List Entry) :
    (process want es).1.map (·.fl) = es.map (·.fl) ∧
    (∀ e ∈ (process want es).1, e.defined = true → (∃ x ∈ (process want es).2, x.fl = e.fl) ∨ e ∈ es) ∧
    ((∀ fl, want fl = true) → ∀ e ∈ (process want es).1, e.defined = true) := by
  induction es with
  | nil => simp [process]
  | cons e es ih =>
    obtain ⟨h1, h2, h3⟩ := ih
    rw [process]
    by_cases hd : e.defined = true
    · rw [if_pos hd]
      refine ⟨by rw [List.map_cons, h1, List.map_cons], ?_, ?_⟩
      · intro x hx hxd
        rcases List.mem_cons.1 hx with rfl | hx
        · exact .inr (List.mem_cons_self ..)
        · rcases h2 x hx hxd with h4 | h4
          · exact .inl h4
          · exact .inr (List.mem_cons_of_mem _ h4)
      · intro hw x hx
        rcases List.mem_cons.1 hx with rfl | hx
        · exact hd
        · exact h3 hw x hx
    · rw [if_neg hd]
      by_cases hw : want e.fl = true
      · rw [if_pos hw]
        refine ⟨by rw [List.map_cons, h1, List.map_cons], ?_, ?_⟩
        · intro x hx hxd
          rcases List.mem_cons.1 hx with rfl | hx
          · exact .inl ⟨_, List.mem_cons_self .., rfl⟩
          · rcases h2 x hx hxd with ⟨y, hy, h4⟩ | h4
            · exact .inl ⟨y, List.mem_cons_of_mem _ hy, h4⟩
            · exact .inr (List.mem_cons_of_mem _ h4)
        · intro hw x hx
          rcases List.mem_cons.1 hx with rfl | hx
          · rfl
          · exact h3 hw x hx
      · rw [if_neg hw]
        refine ⟨by rw [List.map_cons, h1, List.map_cons], ?_, ?_⟩
        · intro x hx hxd
          rcases List.mem_cons.1 hx with rfl | hx
          · exact .inr (List.mem_cons_self ..)
          · rcases h2 x hx hxd with h4 | h4
            · exact .inl h4
            · exact .inr (List.mem_cons_of_mem _ h4)
        · intro hw2
          exact absurd (hw2 e.fl) hw

theorem gen_pass {regs : List Reg} {out : List Checked} {s : Cache} (h : Gen regs out s) (want : FileLoc → Bool) :
    Gen regs (out ++ (process want s.entries).2) { s with entries := (process want s.entries).1, disabled := false } := by
  obtain ⟨h1, h2, _⟩ := process_gen want s.entries
  refine ⟨?_, ?_, ?_, rfl⟩
  · intro r hr
    obtain ⟨e, he, hp⟩ := h.has r hr
    have : e.fl ∈ (process want s.entries).1.map (·.fl) := h1 ▸ List.mem_map.2 ⟨e, he, rfl⟩
    obtain ⟨e', he', h3⟩ := List.mem_map.1 this
    exact ⟨e', he', by rw [h3, hp]⟩
  · intro e he hd
    rcases h2 e he hd with ⟨x, hx, h3⟩ | h3
    · exact ⟨x, List.mem_append_right _ hx, h3⟩
    · obtain ⟨x, hx, h4⟩ := h.out e h3 hd
      exact ⟨x, List.mem_append_left _ hx, h4⟩
  · have : (process want s.entries).1.length = s.entries.length := by
      have := congrArg List.length h1
      simpa using this
    show (process want s.entries).1.length + _ ≤ _
    rw [this]; exact h.space

theorem run_gen (S : Sys) (es : List Ev) (regs : List Reg) (out : List Checked) (s : Cache)
    (h : Gen regs out s) : ∃ s' out', run S s es = some (s', out') ∧ Gen (regs ++ regsOf es) (out ++ out') s' := by
  induction es generalizing regs out s with
  | nil => exact ⟨s, [], rfl, by simpa [regsOf] using h⟩
  | cons e es ih =>
    cases e with
    | add fl t c =>
      obtain ⟨s1, h1, h2⟩ := gen_add h ⟨fl, t, c⟩
      obtain ⟨s2, o, h3, h4⟩ := ih _ _ _ h2
      dsimp only at h1
      exact ⟨s2, o, by rw [run, h1]; exact h3, by simpa [regsOf] using h4⟩
    | file b =>
      obtain ⟨s2, o, h3, h4⟩ := ih _ _ _ (gen_pass h fun fl => S.base fl == b)
      exact ⟨s2, (process (fun fl => S.base fl == b) s.entries).2 ++ o, by simp [run, processFile, pass_eq, h3], by simpa [regsOf] using h4⟩
    | all =>
      cases hp : S.partial_ with
      | true =>
        obtain ⟨s2, o, h3, h4⟩ := ih regs out { s with disabled := false } ⟨h.has, h.out, h.space, rfl⟩
        exact ⟨s2, o, by simp [run, processUndefined, pass_eq, hp, h3], by simpa [regsOf] using h4⟩
      | false =>
        obtain ⟨s2, o, h3, h4⟩ := ih _ _ _ (gen_pass h fun _ => true)
        exact ⟨s2, (process (fun _ => true) s.entries).2 ++ o, by simp [run, processUndefined, pass_eq, hp, h3], by simpa [regsOf] using h4⟩

theorem run_append (S : Sys) (es es2 : List Ev) (s : Cache) :
    run S s (es ++ es2) = (run S s es).bind fun x => (run S x.1 es2).map fun y => (y.1, x.2 ++ y.2) := by
  induction es generalizing s with
  | nil => simp [run]
  | cons e es ih =>
    cases e with
    | add fl t c =>
      rw [List.cons_append, run, run]
      cases add s fl t c with
      | none => rfl
      | some s1 => exact ih s1
    | file b =>
      rw [List.cons_append, run, run]
      cases processFile S.base S.during b s with
      | none => rfl
      | some r =>
        dsimp only
        rw [ih]
        cases run S r.1 es with
        | none => rfl
        | some x => simp [Option.map_map, Function.comp_def]
    | all =>
      rw [List.cons_append, run, run]
      cases processUndefined S.during S.partial_ s with
      | none => rfl
      | some r =>
        dsimp only
        rw [ih]
        cases run S r.1 es with
        | none => rfl
        | some x => simp [Option.map_map, Function.comp_def]

theorem gen_create : Gen [] [] create := ⟨by simp, by simp [create], by decide, rfl⟩

/-- after a pass over everything, every registered place has been checked -/
theorem covered (S : Sys) (hp : S.partial_ = false) (es es2 : List Ev) (s : Cache) (out : List Checked)
    (h : run S create (es ++ .all :: es2) = some (s, out)) (r : Reg) (hr : r ∈ regsOf es) :
    ∃ x ∈ out, place x.fl = place r.fl := by
  obtain ⟨s1, o1, h1, h2⟩ := run_gen S es [] [] create gen_create
  rw [run_append, h1] at h
  obtain ⟨s2, o2, h3, _⟩ := run_gen S es2 _ _ _ (gen_pass h2 fun _ => true)
  simp only [Option.bind_some, run, processUndefined, hp, pass_eq, Bool.false_eq_true, if_false, h3, Option.map_some, Option.some.injEq,
    Prod.mk.injEq] at h
  obtain ⟨e, he, hpl⟩ := (gen_pass h2 fun _ => true).has r (by simpa using hr)
  obtain ⟨x, hx, hfl⟩ := (gen_pass h2 fun _ => true).out e he ((process_gen (fun _ => true) s1.entries).2.2 (fun _ => rfl) e he)
  refine ⟨x, ?_, by rw [hfl, hpl]⟩
  rw [← h.2]
  rw [List.nil_append, List.mem_append] at hx
  rcases hx with hx | hx
  · exact List.mem_append_left _ hx
  · exact List.mem_append_right _ (List.mem_append_left _ hx)

end Splint.MacroCache
