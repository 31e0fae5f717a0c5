import Verif.Spec.RedeclClauses
import Verif.Props.Modify
import Verif.Tactics
/-!
# C121: clauses in later declarations are reported if they say more than earlier ones, and are in effect
-/
namespace Splint.RedeclClauses
open Spec

theorem lookup_isSome (l : Globs) (g : GName) : (lookup l g).isSome ↔ Lists l g := by
  simp only [lookup, Option.isSome_map, List.find?_isSome, Lists, decide_eq_true_eq]
  constructor
  · rintro ⟨⟨a, b⟩, h1, h2⟩; exact ⟨b, by simp only at h2; rwa [h2] at h1⟩
  · rintro ⟨s, h⟩; exact ⟨_, h, rfl⟩

theorem lookup_none (l : Globs) (g : GName) : lookup l g = none ↔ ¬ Lists l g := by
  rw [← lookup_isSome]; cases lookup l g <;> simp

theorem lists_insert (l : Globs) (e : GName × GState) (g : GName) : Lists (insert l e) g ↔ Lists l g ∨ g = e.1 := by
  unfold insert
  split
  · rename_i h
    rw [lookup_isSome] at h
    constructor
    · exact Or.inl
    · rintro (h' | rfl)
      exacts [h', h]
  · unfold Lists
    constructor
    · rintro ⟨s, h⟩
      rcases List.mem_append.1 h with h | h
      · exact Or.inl ⟨s, h⟩
      · simp only [List.mem_singleton] at h
        exact Or.inr (by rw [← h])
    · rintro (⟨s, h⟩ | rfl)
      · exact ⟨s, List.mem_append_left _ h⟩
      · exact ⟨e.2, by simp⟩

/-- without file static variables the elements are looked at one by one -/
theorem globElems_flat (env : GEnv) : ∀ (l : Globs) (old : Globs) (hi hi' : Bool), (∀ e ∈ l, isStatic e.1 = false) →
    (globElems env l old hi).1 = (globElems env l old hi').1 ∧ (globElems env l old hi).2.1 = (globElems env l old hi').2.1 := by
  intro l
  induction l with
  | nil => intro old hi hi' _; exact ⟨rfl, rfl⟩
  | cons e l ih =>
    intro old hi hi' h
    have he := h e (by simp)
    obtain ⟨i1, i2⟩ := ih (globOther env old e).2 hi hi' fun x hx => h x (by simp [hx])
    simp [globElems, he, i1, i2]

theorem globElems_append (env : GEnv) : ∀ (l m : Globs) (old : Globs) (hi : Bool),
    globElems env (l ++ m) old hi = ((globElems env l old hi).1 ++ (globElems env m (globElems env l old hi).2.1 (globElems env l old hi).2.2).1,
      (globElems env m (globElems env l old hi).2.1 (globElems env l old hi).2.2).2) := by
  intro l
  induction l with
  | nil => intro m old hi; simp [globElems]
  | cons e l ih => intro m old hi; simp [globElems, ih]

theorem globsRun_flat (env : GEnv) (ds : List Globs) : ∀ (old : Globs), (∀ d ∈ ds, ∀ e ∈ d, isStatic e.1 = false) →
    globsRun env old ds = globsStep env old ds.flatten := by
  induction ds with
  | nil => intro old _; rfl
  | cons d ds ih =>
    intro old h
    rw [globsRun, ih _ fun x hx => h x (by simp [hx])]
    have hf : ∀ e ∈ ds.flatten, isStatic e.1 = false := by
      intro e he
      obtain ⟨x, hx, hx'⟩ := List.mem_flatten.1 he
      exact h x (by simp [hx]) e hx'
    simp only [globsStep, List.flatten_cons, globElems_append]
    obtain ⟨h1, h2⟩ := globElems_flat env ds.flatten (globElems env d old false).2.1 false (globElems env d old false).2.2 hf
    rw [h1, h2]

end Splint.RedeclClauses

namespace Splint
open RedeclClauses RedeclClauses.Spec

/-! ## Globals -/

/-- If messages are shown, each global variable that the first declaration does not list is reported exactly once, at the
first declaration that lists it; afterwards everything listed anywhere is in effect. -/
theorem C121_globals (env : GEnv) (hm : env.must = true) (hs : ∀ m, env.shown m = true) (old : Globs) (ds : List Globs)
    (hd : ∀ d ∈ ds, ∀ e ∈ d, isStatic e.1 = false) (g : GName) :
    ((globsRun env old ds).1.count (.listed g) = 1 ↔ ¬ Lists old g ∧ ∃ d ∈ ds, Lists d g)
    ∧ (globsRun env old ds).1.count (.listed g) ≤ 1
    ∧ (Lists (globsRun env old ds).2 g ↔ Lists old g ∨ ∃ d ∈ ds, Lists d g) := by
  rw [globsRun_flat env ds old hd]
  have hf : ∀ e ∈ ds.flatten, isStatic e.1 = false := by
    intro e he
    obtain ⟨x, hx, hx'⟩ := List.mem_flatten.1 he
    exact hd x hx e hx'
  have hl : (∃ d ∈ ds, Lists d g) ↔ Lists ds.flatten g := by
    unfold Lists
    constructor
    · rintro ⟨d, h1, s, h2⟩; exact ⟨s, List.mem_flatten.2 ⟨d, h1, h2⟩⟩
    · rintro ⟨s, h⟩
      obtain ⟨d, h1, h2⟩ := List.mem_flatten.1 h
      exact ⟨d, h1, s, h2⟩
  rw [hl]
  generalize ds.flatten = l at *
  clear hl hd
  unfold globsStep
  simp only
  generalize false = hi
  induction l generalizing old with
  | nil => simp [globElems, Lists]
  | cons e l ih =>
    have he := hf e (by simp)
    obtain ⟨i1, i2, i3⟩ := ih (globOther env old e).2 fun x hx => hf x (by simp [hx])
    have hcons : Lists (e :: l) g ↔ g = e.1 ∨ Lists l g := by
      unfold Lists
      constructor
      · rintro ⟨s, h⟩
        rcases List.mem_cons.1 h with h | h
        · exact Or.inl (by rw [← h])
        · exact Or.inr ⟨s, h⟩
      · rintro (rfl | ⟨s, h⟩)
        · exact ⟨e.2, by simp⟩
        · exact ⟨s, by simp [h]⟩
    simp only [globElems, he, Bool.false_eq_true, if_false, List.count_append, hcons]
    rcases hx : lookup old e.1 with _ | s
    · have hno := (lookup_none old e.1).1 hx
      have hstep : globOther env old e = ([.listed e.1], insert old e) := by simp [globOther, hx, hm, hs]
      rw [hstep] at i1 i2 i3 ⊢
      simp only [lists_insert] at i1 i2 i3
      by_cases hg : g = e.1
      · subst hg
        have hz : (globElems env l (insert old e) hi).1.count (.listed e.1) = 0 := by
          have : ¬ (globElems env l (insert old e) hi).1.count (.listed e.1) = 1 := by rw [i1]; simp
          omega
        simp only [hz, List.count_singleton, i3]
        simp [hno]
      · have hc : List.count (GMsg.listed g) [GMsg.listed e.1] = 0 := by
          simp [List.count_singleton, Ne.symm hg]
        simp only [hc, Nat.zero_add]
        simp only [hg, or_false, false_or] at i1 i3 ⊢
        exact ⟨i1, i2, i3⟩
    · have hyes : Lists old e.1 := (lookup_isSome old e.1).1 (by simp [hx])
      have hstep : (globOther env old e).2 = old := by simp [globOther, hx]
      have hc : (globOther env old e).1.count (.listed g) = 0 := by
        simp only [globOther, hx]; split <;> simp
      rw [hstep] at i1 i2 i3 ⊢
      rw [hc, Nat.zero_add]
      refine ⟨?_, i2, ?_⟩
      · rw [i1]
        constructor
        · rintro ⟨a, b⟩; exact ⟨a, Or.inr b⟩
        · rintro ⟨a, rfl | b⟩
          · exact absurd hyes a
          · exact ⟨a, b⟩
      · rw [i3]
        constructor
        · rintro (a | b)
          exacts [Or.inl a, Or.inr (Or.inr b)]
        · rintro (a | rfl | b)
          exacts [Or.inl a, Or.inl hyes, Or.inr b]

/-- If the message is suppressed, or the first declaration is in a library, what later declarations list is not in
effect. -/
theorem C121_globals_lost (env : GEnv) (hs : env.must = false ∨ ∀ g, env.shown (.listed g) = false) (old : Globs)
    (ds : List Globs) (hd : ∀ d ∈ ds, ∀ e ∈ d, isStatic e.1 = false) : (globsRun env old ds).2 = old := by
  rw [globsRun_flat env ds old hd]
  have hf : ∀ e ∈ ds.flatten, isStatic e.1 = false := by
    intro e he
    obtain ⟨x, hx, hx'⟩ := List.mem_flatten.1 he
    exact hd x hx e hx'
  generalize ds.flatten = l at *
  unfold globsStep
  simp only
  generalize false = hi
  induction l with
  | nil => rfl
  | cons e l ih =>
    have he := hf e (by simp)
    have hstep : (globOther env old e).2 = old := by
      unfold globOther
      rcases lookup old e.1 with _ | s
      · rcases hs with h | h
        · simp [h]
        · simp only [h]; split <;> rfl
      · rfl
    simp only [globElems, he, Bool.false_eq_true, if_false, hstep]
    exact ih fun x hx => hf x (by simp [hx])

/-- What the declarations list together is in effect. -/
def C121_globals_full : Prop :=
  ∀ (env : GEnv) (old : Globs) (ds : List Globs) (g : GName), (∃ d ∈ ds, Lists d g) → Lists (globsRun env old ds).2 g

theorem C121_globals_full_is_false : ¬ C121_globals_full := by
  intro h
  have := h ⟨true, false, false, fun _ => false⟩ [] [[(.var false 1, .plain)]] (.var false 1)
    ⟨[(.var false 1, .plain)], by simp, .plain, by simp⟩
  revert this
  rw [← lookup_isSome]
  decide

example : globsRun ⟨true, false, false, fun _ => true⟩ [(.var false 0, .plain)] [[(.var false 1, .plain)], [(.var false 0, .plain), (.var false 1, .plain)]]
    = ([.listed (.var false 1)], [(.var false 0, .plain), (.var false 1, .plain)]) := by decide

/-- out is compared; but what is in effect is what the first declaration says, and the message is repeated with each
declaration that says otherwise. -/
theorem C121_out (env : GEnv) (hm : env.must = true) (old : Globs) (g : GName) (hg : isStatic g = false) (s : GState)
    (hs : lookup old g = some s) (ds : List GState) :
    globsRun env old (ds.map fun d => [(g, d)])
      = (ds.flatMap fun d => if (d = .out) = (s = .out) then [] else [.outGlobal g (decide (d = .out))], old) := by
  induction ds with
  | nil => rfl
  | cons d ds ih =>
    have hst : globsStep env old [(g, d)] = (if (d = .out) = (s = .out) then [] else [.outGlobal g (decide (d = .out))], old) := by
      simp only [globsStep, globElems, hg, Bool.false_eq_true, if_false, globOther, hs, hm, true_and]
      by_cases h1 : d = .out <;> by_cases h2 : s = .out <;> simp [h1, h2]
    simp only [List.map_cons, globsRun, hst, ih, List.flatMap_cons]

/-- undef and killed in a later declaration are ignored silently. -/
theorem C121_undef_ignored (env : GEnv) (old : Globs) (g : GName) (hg : isStatic g = false) (s d : GState)
    (hs : lookup old g = some s) (h : s ≠ .out) (hd : d ≠ .out) : globsStep env old [(g, d)] = ([], old) := by
  simp [globsStep, globElems, hg, globOther, hs, h, hd]

example : globsStep ⟨true, false, false, fun _ => true⟩ [(.var false 1, .plain)] [(.var false 1, .undef)] = ([], [(.var false 1, .plain)])
    ∧ globsStep ⟨true, false, false, fun _ => true⟩ [(.var false 1, .plain)] [(.var false 1, .out)]
      = ([.outGlobal (.var false 1) true], [(.var false 1, .plain)]) := by decide

/-- File static variables are in effect in any case. -/
theorem C121_static_listed (env : GEnv) (old new : Globs) (g : GName) (hg : isStatic g = true) (h : Lists new g) :
    Lists (globsStep env old new).2 g := by
  have mono : ∀ (l : Globs) (old : Globs) (hi : Bool), Lists old g → Lists (globElems env l old hi).2.1 g := by
    intro l
    induction l with
    | nil => intro old hi h; exact h
    | cons e l ih =>
      intro old hi h
      simp only [globElems]
      apply ih
      split
      · unfold globStatic
        repeat' split
        all_goals simp [lists_insert, h]
      · unfold globOther
        repeat' split
        all_goals simp [lists_insert, h]
  unfold globsStep
  simp only
  generalize false = hi
  induction new generalizing old hi with
  | nil => obtain ⟨s, h⟩ := h; simp at h
  | cons e l ih =>
    obtain ⟨s, h⟩ := h
    simp only [globElems]
    rcases List.mem_cons.1 h with h | h
    · apply mono
      rw [← h]
      simp only [hg, if_true]
      unfold globStatic
      split
      · rename_i hx; exact (lookup_isSome _ _).1 hx
      · split <;> simp [lists_insert]
    · exact ih _ ⟨s, h⟩ _

open Classical in
/-- That a list has internal state is reported once, exactly if the function is not static, the list has a file static
variable that was not listed before, and neither internalState nor specState were. -/
theorem C121_internal (env : GEnv) (old new : Globs) (h1 : ¬ Lists new .internal) (h2 : ¬ Lists new .spec) :
    (globsStep env old new).1.count .internal =
      if env.must = true ∧ env.oldStatic = false ∧ ¬ Lists old .internal ∧ ¬ Lists old .spec
          ∧ ∃ g, isStatic g = true ∧ Lists new g ∧ ¬ Lists old g then 1 else 0 := by
  unfold globsStep
  simp only
  have key : ∀ (l : Globs) (old : Globs) (hi : Bool), ¬ Lists l .internal → ¬ Lists l .spec → (hi = true → Lists old .internal) →
      (globElems env l old hi).1.count .internal = if env.must = true ∧ env.oldStatic = false ∧ ¬ Lists old .internal
        ∧ ¬ Lists old .spec ∧ ∃ g, isStatic g = true ∧ Lists l g ∧ ¬ Lists old g then 1 else 0 := by
    intro l
    induction l with
    | nil => intro old hi _ _ _; simp [globElems, Lists]
    | cons e l ih =>
      intro old hi n1 n2 hinv
      have hcons : ∀ g, Lists (e :: l) g ↔ g = e.1 ∨ Lists l g := by
        intro g
        unfold Lists
        constructor
        · rintro ⟨s, h⟩
          rcases List.mem_cons.1 h with h | h
          · exact Or.inl (by rw [← h])
          · exact Or.inr ⟨s, h⟩
        · rintro (rfl | ⟨s, h⟩)
          · exact ⟨e.2, by simp⟩
          · exact ⟨s, by simp [h]⟩
      rw [hcons, not_or] at n1 n2
      simp only [globElems, List.count_append]
      by_cases he : isStatic e.1 = true
      · simp only [he, if_true]
        by_cases hl : Lists old e.1
        · have hg : globStatic env old hi e = ([], old, hi) := by
            unfold globStatic; rw [if_pos ((lookup_isSome _ _).2 hl)]
          rw [hg, ih old hi n1.2 n2.2 hinv]
          simp only [List.count_nil, Nat.zero_add]
          congr 1
          simp only [hcons, eq_iff_iff]
          constructor
          · rintro ⟨a, b, c, d, g, x, y, z⟩; exact ⟨a, b, c, d, g, x, Or.inr y, z⟩
          · rintro ⟨a, b, c, d, g, x, rfl | y, z⟩
            · exact absurd hl z
            · exact ⟨a, b, c, d, g, x, y, z⟩
        · have hn : ¬ (lookup old e.1).isSome = true := by rw [lookup_isSome]; exact hl
          by_cases hc : ¬ Lists old .internal ∧ ¬ Lists old .spec
          · have hhi : hi = false := by
              cases hi with
              | false => rfl
              | true => exact absurd (hinv rfl) hc.1
            have hg : globStatic env old hi e = ((if env.must && !env.oldStatic then [.internal] else [])
                ++ (if !((env.must && !env.oldStatic) && env.shown .internal) && env.sameFile && env.must then [.sameFile e.1] else []),
                insert (insert old (.internal, .plain)) e, true) := by
              unfold globStatic
              rw [if_neg hn, if_pos ⟨hhi, (lookup_none _ _).2 hc.1, (lookup_none _ _).2 hc.2⟩]
            rw [hg]
            simp only
            have hin : Lists (insert (insert old (.internal, .plain)) e) .internal := by simp [lists_insert]
            have ht : (globElems env l (insert (insert old (.internal, .plain)) e) true).1.count .internal = 0 := by
              rw [ih _ true n1.2 n2.2 fun _ => hin]
              exact if_neg fun h => h.2.2.1 hin
            rw [ht]
            have hz : ∀ b : Bool, (if b then [GMsg.sameFile e.1] else []).count .internal = 0 := by intro b; cases b <;> simp
            rw [List.count_append, hz]
            by_cases hm : env.must = true ∧ env.oldStatic = false
            · refine Eq.trans ?_ (if_pos ⟨hm.1, hm.2, hc.1, hc.2, e.1, he, (hcons _).2 (Or.inl rfl), hl⟩).symm
              simp [hm.1, hm.2]
            · refine Eq.trans ?_ (if_neg fun h => hm ⟨h.1, h.2.1⟩).symm
              have : (env.must && !env.oldStatic) = false := by
                cases h : env.must <;> cases h' : env.oldStatic <;> simp_all
              simp [this]
          · have hg : globStatic env old hi e = (if env.sameFile && env.must then [.sameFile e.1] else [], insert old e, hi) := by
              unfold globStatic
              rw [if_neg hn, if_neg (by
                rintro ⟨-, a, b⟩
                exact hc ⟨(lookup_none _ _).1 a, (lookup_none _ _).1 b⟩)]
            rw [hg]
            simp only
            rw [ih _ hi n1.2 n2.2 (by intro h; rw [lists_insert]; exact Or.inl (hinv h))]
            have hz : ∀ b : Bool, (if b then [GMsg.sameFile e.1] else []).count .internal = 0 := by intro b; cases b <;> simp
            rw [hz, if_neg (by rw [lists_insert, lists_insert]; tauto), if_neg (by tauto)]
      · simp only [he, Bool.false_eq_true, if_false]
        have hst : ∀ g, isStatic g = true → (Lists (globOther env old e).2 g ↔ Lists old g) := by
          intro g hg
          have hne : g ≠ e.1 := by rintro rfl; exact he hg
          unfold globOther
          repeat' split
          all_goals simp [lists_insert, hne]
        have hsp : ∀ g, g ≠ e.1 → (Lists (globOther env old e).2 g ↔ Lists old g) := by
          intro g hne
          unfold globOther
          repeat' split
          all_goals simp [lists_insert, hne]
        have hz : (globOther env old e).1.count .internal = 0 := by
          unfold globOther
          repeat' split
          all_goals simp
        rw [hz, Nat.zero_add, ih _ hi n1.2 n2.2 (by intro h; rw [hsp _ n1.1]; exact hinv h), hsp _ n1.1, hsp _ n2.1]
        congr 1
        simp only [eq_iff_iff]
        constructor
        · rintro ⟨a, b, c, d, g, x, y, z⟩
          exact ⟨a, b, c, d, g, x, (hcons g).2 (Or.inr y), by rwa [hst g x] at z⟩
        · rintro ⟨a, b, c, d, g, x, y, z⟩
          rcases (hcons g).1 y with rfl | y
          · exact absurd x he
          · exact ⟨a, b, c, d, g, x, y, by rwa [hst g x]⟩
  exact key new old false h1 h2 (by simp)

example : globsStep ⟨true, false, true, fun _ => true⟩ [] [(.var true 1, .plain), (.var true 2, .plain)]
    = ([.internal, .sameFile (.var true 2)], [(.internal, .plain), (.var true 1, .plain), (.var true 2, .plain)]) := by decide

/-! ## Modifies -/

namespace RedeclClauses
open SRef hiding new

theorem canModifyVal_eq (env : ModEnv) (l : Mods) (s : SRef) (h : s.every notResult = true) :
    canModifyVal env l s = some (permVal env l s, if env.flags.mustMod then markAll l s else l) := by
  unfold canModifyVal
  cases hm : env.flags.mustMod
  · simp [checkModifyVal_eq env l s h]
  · simp [doModifyVal_eq env s h]

theorem permVal_false (env : ModEnv) (l : Mods) (s : SRef) : permVal env l s = false ↔ NotPermitted env l s := by
  unfold permVal NotPermitted listed
  simp only [List.all_eq_false, Bool.not_eq_true, List.any_eq_false, Bool.or_eq_false_iff]

theorem notPermitted_mono (env : ModEnv) (l l' : Mods) (s : SRef) (h : ∀ e ∈ l, ∃ e' ∈ l', e'.1 = e.1)
    (hn : NotPermitted env l' s) : NotPermitted env l s := by
  obtain ⟨c, hc, hu⟩ := hn
  refine ⟨c, hc, fun u hu' => ⟨fun e he => ?_, (hu u hu').2⟩⟩
  obtain ⟨e', h1, h2⟩ := h e he
  rw [← h2]
  exact (hu u hu').1 e' h1

/-- the storage of a list -/
def sto (l : Mods) : List SRef := l.map (·.1)

theorem sto_mark (b : Bool) (l : Mods) (s : SRef) : sto (if b then markAll l s else l) = sto l := by
  cases b
  · rfl
  · simp [sto, markAll]

theorem sto_minsert (cm : Nat → Nat → Bool) (l : Mods) (e : SRef × Bool) :
    sto (minsert cm l e) = if SRefSet.isSameMember cm (sto l) e.1 then sto l else sto l ++ [e.1] := by
  unfold minsert sameMember sto
  split <;> simp

/-- Whether it is permitted depends on the storage of the list only. -/
theorem notPermitted_sto (env : ModEnv) (l l' : Mods) (s : SRef) (h : sto l = sto l') :
    NotPermitted env l s ↔ NotPermitted env l' s := by
  have : ∀ (l : Mods) (u : SRef), (∀ e ∈ l, u.similar e.1 = false) ↔ ∀ x ∈ sto l, u.similar x = false := by
    intro l u
    simp only [sto, List.mem_map, forall_exists_index, and_imp, forall_apply_eq_imp_iff₂]
  unfold NotPermitted
  simp only [this, h]

theorem modElem_other (env : MEnv) (l : Mods) (mi : Bool) (e : SRef × Bool) (hs : SRefSet.isStatic e.1 = false)
    (hr : e.1.every notResult = true) :
    modElem env l mi e = some (if permVal env.mod l e.1 then [] else if env.must then [.notModifiable e.1] else [],
      if permVal env.mod l e.1 then minsert env.cm (if env.mod.flags.mustMod then markAll l e.1 else l) e
      else if env.mod.flags.mustMod then markAll l e.1 else l, mi) := by
  unfold modElem
  rw [hs]
  simp only [Bool.false_eq_true, if_false, canModifyVal_eq env.mod l e.1 hr, Option.bind_eq_bind, Option.bind_some]
  cases permVal env.mod l e.1 <;> simp

end RedeclClauses

open RedeclClauses in
/-- An element of a modifies clause is reported exactly if the earlier clauses do not permit to modify it. If it is
reported, it is not permitted afterwards either. -/
theorem C121_mods_element (env : MEnv) (hm : env.must = true) (l : SRef.Mods) (mi : Bool) (e : SRef × Bool)
    (hs : SRefSet.isStatic e.1 = false) (hr : e.1.every SRef.notResult = true) :
    ∃ ms l', modElem env l mi e = some (ms, l', mi) ∧ (ms = [.notModifiable e.1] ↔ NotPermitted env.mod l e.1)
      ∧ (ms = [] ↔ ¬ NotPermitted env.mod l e.1)
      ∧ (NotPermitted env.mod l e.1 → sto l' = sto l ∧ NotPermitted env.mod l' e.1) := by
  rw [modElem_other env l mi e hs hr]
  refine ⟨_, _, rfl, ?_⟩
  rw [← permVal_false]
  cases hp : SRef.permVal env.mod l e.1
  · refine ⟨by simp [hm], by simp [hm], fun _ => ?_⟩
    simp only [Bool.false_eq_true, if_false]
    refine ⟨sto_mark _ _ _, ?_⟩
    rw [notPermitted_sto env.mod _ l _ (sto_mark _ _ _), ← permVal_false]
    exact hp
  · simp

open RedeclClauses in
/-- A static variable in a modifies clause of a function that is not static itself is reported, once, unless the internal
state or the specified state is permitted, which it is from then on; it is always added. -/
theorem C121_mods_static (env : MEnv) (l : SRef.Mods) (mi : Bool) (e : SRef × Bool)
    (hs : SRefSet.isStatic e.1 = true) :
    ∃ ms l' mi', modElem env l mi e = some (ms, l', mi')
      ∧ (ms = [.internal] ↔ env.must = true ∧ env.oldStatic = false ∧ mi = false
        ∧ sameMember env.cm l (SRef.special env.internalAddr .internal) = false
        ∧ sameMember env.cm l (SRef.special env.specAddr .specState) = false)
      ∧ (ms = [] ∨ ms = [.internal]) ∧ (mi = true → mi' = true)
      ∧ (ms = [.internal] → mi' = true ∧ modElem env l' mi' e = some ([], minsert env.cm l' e, true)) := by
  unfold modElem
  simp only [hs, if_true]
  by_cases h : mi = false ∧ sameMember env.cm l (SRef.special env.internalAddr .internal) = false
        ∧ sameMember env.cm l (SRef.special env.specAddr .specState) = false
  · rw [if_pos h]
    refine ⟨_, _, _, rfl, ?_, ?_, fun _ => rfl, fun _ => ⟨rfl, ?_⟩⟩
    · obtain ⟨h1, h2, h3⟩ := h
      cases env.must <;> cases env.oldStatic <;> simp_all
    · split <;> simp
    · simp [hs]
  · rw [if_neg h]
    refine ⟨_, _, _, rfl, ?_, .inl rfl, fun h => h, fun h => by simp at h⟩
    simp only [List.nil_eq, reduceCtorEq, false_iff]
    tauto

open RedeclClauses in
/-- There is a modifies clause if one of the declarations has one. -/
theorem C121_has_mods (env : MEnv) (old new : MFcn) (ms : List MMsg) (f : MFcn)
    (h : modsStep env old new = some (ms, f)) : f.hasMods = (old.hasMods || new.hasMods) := by
  unfold modsStep at h
  cases hr : modElems env new.mods old.mods false with
  | none => rw [hr] at h; cases h
  | some r =>
    rw [hr] at h
    cases h
    rfl

open RedeclClauses in
/-- A clause that has only what earlier ones permit is not reported. -/
theorem C121_mods_silent (env : MEnv) (l : SRef.Mods) (new : SRef.Mods) (mi : Bool)
    (h : ∀ e ∈ new, SRefSet.isStatic e.1 = false ∧ e.1.every SRef.notResult = true ∧ ¬ NotPermitted env.mod l e.1) :
    ∃ l', modElems env new l mi = some ([], l', mi) ∧ ∀ x ∈ sto l, x ∈ sto l' := by
  induction new generalizing l with
  | nil => exact ⟨l, rfl, fun x hx => hx⟩
  | cons e new ih =>
    obtain ⟨h1, h2, h3⟩ := h e (by simp)
    have hp : SRef.permVal env.mod l e.1 = true := by
      rw [← permVal_false] at h3
      simpa using h3
    have hsub : ∀ x ∈ sto l, x ∈ sto (minsert env.cm (if env.mod.flags.mustMod then SRef.markAll l e.1 else l) e) := by
      intro x hx
      rw [sto_minsert, sto_mark]
      split
      · exact hx
      · exact List.mem_append_left _ hx
    obtain ⟨l', i1, i2⟩ := ih (minsert env.cm (if env.mod.flags.mustMod then SRef.markAll l e.1 else l) e) (by
      intro x hx
      obtain ⟨a, b, c⟩ := h x (by simp [hx])
      refine ⟨a, b, fun hn => c (notPermitted_mono env.mod l _ x.1 ?_ hn)⟩
      intro y hy
      have := hsub y.1 (List.mem_map_of_mem hy)
      obtain ⟨z, hz, hz'⟩ := List.mem_map.1 this
      exact ⟨z, hz, hz'⟩)
    refine ⟨l', ?_, fun x hx => i2 x (hsub x hx)⟩
    simp only [modElems, modElem_other env l mi e h1 h2, hp, if_true, Option.bind_eq_bind, Option.bind_some, i1]
    rfl

open RedeclClauses in
/-- If the first declaration has no modifies clause (so that anything may be modified) and a later one has a clause, each
element of it that needs permission is reported, and afterwards the function may modify nothing. -/
theorem C121_mods_to_nothing (env : MEnv) (hm : env.must = true) (new : SRef.Mods)
    (h : ∀ e ∈ new, SRefSet.isStatic e.1 = false ∧ e.1.every SRef.notResult = true ∧ NotPermitted env.mod [] e.1) :
    modsStep env ⟨false, []⟩ ⟨true, new⟩ = some (new.map fun e => .notModifiable e.1, ⟨true, []⟩) := by
  have key : ∀ (new : SRef.Mods) (mi : Bool), (∀ e ∈ new, SRefSet.isStatic e.1 = false ∧ e.1.every SRef.notResult = true ∧ NotPermitted env.mod [] e.1) →
      modElems env new [] mi = some (new.map fun e => .notModifiable e.1, [], mi) := by
    intro new
    induction new with
    | nil => intro mi _; rfl
    | cons e new ih =>
      intro mi h
      obtain ⟨h1, h2, h3⟩ := h e (by simp)
      rw [← permVal_false] at h3
      have hk : (if env.mod.flags.mustMod then SRef.markAll [] e.1 else []) = [] := by simp [SRef.markAll]
      simp only [modElems, modElem_other env [] mi e h1 h2, h3, Bool.false_eq_true, if_false, hm, if_true, hk,
        Option.bind_eq_bind, Option.bind_some, ih mi fun x hx => h x (by simp [hx])]
      rfl
  simp [modsStep, key new false h]

open RedeclClauses in
/-- Then a modification of what the clause lists is reported. -/
theorem C121_listed_but_reported (env : MEnv) (hm : env.must = true) (new : SRef.Mods)
    (h : ∀ e ∈ new, SRefSet.isStatic e.1 = false ∧ e.1.every SRef.notResult = true ∧ NotPermitted env.mod [] e.1)
    (env' : ModEnv) (hmod : env'.flags.modifies = true) (hh : env'.hasMods = true) (hi : env'.flags.mustMod = false)
    (s : SRef) (hc : s.every SRef.notConj = true) (hr : s.every SRef.notResult = true) (hf : s.freeTop = false)
    (hroot : ∀ u ∈ s.parts, u.freeRoot env' = false) :
    ∃ r sl', modsStep env ⟨false, []⟩ ⟨true, new⟩ = some r ∧ r.2.hasMods = true ∧
      SRef.modification env' r.2.mods s = some (true, sl') := by
  obtain ⟨b, sl', h1, h2⟩ := SRef.C42_partial env' [] s hc hr hmod (by simp [hh]) (Or.inl hi)
  have hb : b = true := h2.2 ⟨hf, fun u hu => ⟨by simp, hroot u hu⟩⟩
  exact ⟨_, sl', C121_mods_to_nothing env hm new h, rfl, by rw [h1, hb]⟩

/-- What the clauses say together is in effect: what a clause of a later declaration lists is permitted. -/
def C121_mods_full : Prop :=
  ∀ (env : MEnv) (old new : MFcn) (e : SRef × Bool), old.hasMods = false → e ∈ new.mods →
    ∀ r, modsStep env old new = some r → ¬ NotPermitted env.mod r.2.mods e.1

theorem C121_mods_full_is_false : ¬ C121_mods_full := by
  intro h
  let env : MEnv := ⟨SRef.allOn false, fun _ _ => false, true, false, 100, 101⟩
  have hn : NotPermitted env.mod [] (.ptr 2 (.param 1 0)) := by
    rw [← permVal_false]; decide +kernel
  have := C121_mods_to_nothing env rfl [(.ptr 2 (.param 1 0), false)] (by
    intro e he
    simp only [List.mem_singleton] at he
    subst he
    exact ⟨by decide +kernel, by decide, hn⟩)
  exact h env ⟨false, []⟩ ⟨true, [(.ptr 2 (.param 1 0), false)]⟩ (.ptr 2 (.param 1 0), false) rfl (by simp) _ this hn

open RedeclClauses in
/-- With `+mustmod`, if a later declaration repeats the clause, all elements count as modified: nothing is reported at the
end of the function, whatever its body does. -/
theorem C121_mustmod_lost (env : MEnv) (hm : env.mod.flags.mustMod = true) (old new : SRef.Mods)
    (hn : ∀ e ∈ new, SRefSet.isStatic e.1 = false ∧ e.1.every SRef.notResult = true)
    (hsame : ∀ e ∈ new, SRefSet.isSameMember env.cm (old.map (·.1)) e.1 = true)
    (hrep : ∀ e ∈ old, ∃ x ∈ new, ∃ u ∈ x.1.parts, u.markable = true ∧ u.similar e.1 = true)
    (env' : ModEnv) (hm' : env'.flags.mustMod = true) (body : List SRef)
    (hb : ∀ s ∈ body, s.every SRef.notConj = true ∧ s.every SRef.notResult = true) :
    ∃ ms l reps l', modElems env new old false = some (ms, l, false) ∧ SRef.modifications env' l body = some (reps, l')
      ∧ SRef.unused l' = [] := by
  have key : ∀ (new : SRef.Mods), (∀ e ∈ new, SRefSet.isStatic e.1 = false ∧ e.1.every SRef.notResult = true) →
      ∀ (l : SRef.Mods), (∀ e ∈ new, SRefSet.isSameMember env.cm (sto l) e.1 = true) →
      ∃ ms l', modElems env new l false = some (ms, l', false) ∧ sto l' = sto l
        ∧ ∀ (i : Nat) e m, l[i]? = some (e, m) → ∃ m', l'[i]? = some (e, m') ∧
          (m' = true ↔ m = true ∨ ∃ x ∈ new, ∃ u ∈ x.1.parts, u.markable = true ∧ u.similar e = true) := by
    intro new
    induction new with
    | nil => intro _ l _; exact ⟨[], l, rfl, rfl, fun i e m h => ⟨m, h, by simp⟩⟩
    | cons x new ih =>
      intro hn l hs
      obtain ⟨h1, h2⟩ := hn x (by simp)
      have hx := hs x (by simp)
      have hmi : minsert env.cm (SRef.markAll l x.1) x = SRef.markAll l x.1 := by
        unfold minsert sameMember
        have : (SRef.markAll l x.1).map (·.1) = sto l := by simp [SRef.markAll, sto]
        rw [this, hx]
        rfl
      have hst : sto (SRef.markAll l x.1) = sto l := by simp [SRef.markAll, sto]
      obtain ⟨ms, l', i1, i2, i3⟩ := ih (fun e he => hn e (by simp [he])) (SRef.markAll l x.1)
        (fun e he => by rw [hst]; exact hs e (by simp [he]))
      refine ⟨(if SRef.permVal env.mod l x.1 then [] else if env.must then [.notModifiable x.1] else []) ++ ms, l', ?_, i2.trans hst, ?_⟩
      · simp only [modElems, modElem_other env l false x h1 h2, hm, if_true, hmi, ite_self, Option.bind_eq_bind,
          Option.bind_some, i1]
      · intro i e m h
        have hi : (SRef.markAll l x.1)[i]? = some (e, m || x.1.parts.any fun u => u.markable && u.similar e) := by
          simp [SRef.markAll, h]
        obtain ⟨m', j1, j2⟩ := i3 i e _ hi
        refine ⟨m', j1, ?_⟩
        rw [j2]
        simp only [Bool.or_eq_true, List.any_eq_true, Bool.and_eq_true, List.mem_cons, exists_eq_or_imp, or_assoc]
  obtain ⟨ms, l, k1, k2, k3⟩ := key new hn old hsame
  obtain ⟨reps, l', m1, m2, m3⟩ := SRef.C49_marks env' body hb hm' l
  refine ⟨ms, l, reps, l', k1, m1, ?_⟩
  have hall : ∀ x ∈ l', x.2 = true := by
    intro x hx
    obtain ⟨i, hi⟩ := List.getElem?_of_mem hx
    have hst : sto l' = sto old := m2.trans k2
    have hold : (sto old)[i]? = some x.1 := by
      rw [← hst]; simp [sto, hi]
    obtain ⟨y, hy, hy'⟩ : ∃ y, old[i]? = some y ∧ y.1 = x.1 := by
      simpa [sto] using hold
    obtain ⟨m', p1, p2⟩ := k3 i y.1 y.2 (by rw [hy])
    have hm'' : m' = true := p2.2 (Or.inr (by
      obtain ⟨z, hz, u, hu, q⟩ := hrep y (List.mem_of_getElem? hy)
      exact ⟨z, hz, u, hu, q⟩))
    obtain ⟨m3', q1, q2⟩ := m3 i y.1 m' p1
    rw [hi] at q1
    have := Option.some.inj q1
    rw [this]
    exact q2.2 (Or.inl hm'')
  unfold SRef.unused
  rw [List.map_eq_nil_iff, List.filter_eq_nil_iff]
  intro x hx
  have := hall x hx
  obtain ⟨y, m⟩ := x
  simp only at this
  subst this
  cases y with
  | special a k => cases k <;> simp
  | _ => simp

/-- For example, a header and the definition both say `modifies *p`; the body does nothing. -/
example : modElems ⟨SRef.allOn true, fun _ _ => false, true, false, 100, 101⟩ [(.ptr 2 (.param 1 0), false)]
      [(.ptr 4 (.param 3 0), false)] false = some ([], [(.ptr 4 (.param 3 0), true)], false)
    ∧ SRef.unused [(.ptr 4 (.param 3 0), false)] = [.ptr 4 (.param 3 0)]
    ∧ SRef.unused [(.ptr 4 (.param 3 0), true)] = [] := by decide +kernel

/-! ## Requires and ensures -/

/-- Outside of `.xh` files, the last preconditions count; each later declaration that has any is reported, even if they
are the same or there were none before. -/
theorem C121_pre {C : Type} (c : Contract C) (ds : List (Place × Contract C)) (h : ∀ d ∈ ds, d.1.xh = false ∧ d.1.same = false) :
    (contractRun c ds).1.count .pre = ds.countP (fun d => d.2.pre.isSome)
    ∧ (contractRun c ds).1.count .post = ds.countP (fun d => d.2.post.isSome)
    ∧ (contractRun c ds).2.pre = (ds.map (·.2.pre)).foldl (fun a b => b.or a) c.pre
    ∧ (contractRun c ds).2.post = (ds.map (·.2.post)).foldl (fun a b => b.or a) c.post := by
  induction ds generalizing c with
  | nil => simp [contractRun]
  | cons d ds ih =>
    obtain ⟨h1, h2⟩ := h d (by simp)
    obtain ⟨i1, i2, i3, i4⟩ := ih (contractStep d.1 c d.2).2 fun x hx => h x (by simp [hx])
    have hp : preStep d.1 c.pre d.2.pre = (if d.2.pre.isSome then [.pre] else [], d.2.pre.or c.pre) := by
      unfold preStep; cases d.2.pre <;> simp [h1, h2]
    have hq : postStep d.1 c.post d.2.post = (if d.2.post.isSome then [.post] else [], d.2.post.or c.post) := by
      unfold postStep; cases d.2.post <;> simp [h1]
    have hs : contractStep d.1 c d.2 = ((if d.2.pre.isSome then [.pre] else []) ++ (if d.2.post.isSome then [.post] else []),
        ⟨d.2.pre.or c.pre, d.2.post.or c.post⟩) := by
      simp [contractStep, hp, hq]
    rw [hs] at i1 i2 i3 i4
    simp only [contractRun, hs, List.count_append, i1, i2, i3, i4, List.countP_cons, List.map_cons, List.foldl_cons]
    cases d.2.pre <;> cases d.2.post <;> simp <;> omega

/-- Constraints that are the same, or the first ones, are not reported. -/
def C121_pre_full : Prop :=
  ∀ (p : Place) (old new : Contract Nat), (old.pre = none ∨ old.pre = new.pre) → (contractStep p old new).1.count .pre = 0

theorem C121_pre_full_is_false : ¬ C121_pre_full := by
  intro h
  have := h ⟨false, false⟩ ⟨none, none⟩ ⟨some (.base 1), none⟩ (Or.inl rfl)
  simp [contractStep, preStep, postStep] at this

/-- In `.xh` files, all constraints hold together, and nothing is reported. -/
theorem C121_xh {C : Type} (c : Contract C) (ds : List (Place × Contract C)) (h : ∀ d ∈ ds, d.1.xh = true) (x : C) :
    (contractRun c ds).1 = []
    ∧ (Part x (contractRun c ds).2.pre ↔ Part x c.pre ∨ ∃ d ∈ ds, Part x d.2.pre)
    ∧ (Part x (contractRun c ds).2.post ↔ Part x c.post ∨ ∃ d ∈ ds, Part x d.2.post) := by
  have hc : ∀ (a b : Option (Cons C)), Part x (some (.conj a b)) ↔ Part x a ∨ Part x b := by
    intro a b
    constructor
    · intro h
      cases h with
      | left _ h => exact Or.inl h
      | right _ h => exact Or.inr h
    · rintro (h | h)
      exacts [.left _ h, .right _ h]
  have hnone : ¬ Part x (none : Option (Cons C)) := by intro h; cases h
  induction ds generalizing c with
  | nil => simp [contractRun]
  | cons d ds ih =>
    have h1 := h d (by simp)
    obtain ⟨i1, i2, i3⟩ := ih (contractStep d.1 c d.2).2 fun y hy => h y (by simp [hy])
    have hm : (contractStep d.1 c d.2).1 = [] := by
      simp only [contractStep, preStep, postStep]
      cases d.2.pre <;> cases d.2.post <;> simp [h1]
    have hp : Part x (contractStep d.1 c d.2).2.pre ↔ Part x c.pre ∨ Part x d.2.pre := by
      simp only [contractStep, preStep]
      cases d.2.pre <;> simp [h1, hnone, hc]
    have hq : Part x (contractStep d.1 c d.2).2.post ↔ Part x c.post ∨ Part x d.2.post := by
      simp only [contractStep, postStep]
      cases d.2.post <;> simp [h1, hnone, hc]
    simp only [contractRun, hm, i1, List.nil_append, i2, i3, hp, hq, List.mem_cons, exists_eq_or_imp, or_assoc, and_self]

/-- Preconditions at the same place are ignored, postconditions are reported. -/
theorem C121_same_place {C : Type} (c d : Contract C) (a b : Cons C) (h1 : d.pre = some a) (h2 : d.post = some b) :
    (contractStep ⟨false, true⟩ c d).1 = [.post] ∧ (contractStep ⟨false, true⟩ c d).2.pre = c.pre
    ∧ (contractStep ⟨false, true⟩ c d).2.post = some b := by
  simp [contractStep, preStep, postStep, h1, h2]

example : (contractRun (⟨none, none⟩ : Contract Nat) [(⟨false, false⟩, ⟨some (.base 1), none⟩), (⟨false, false⟩, ⟨some (.base 1), none⟩)]).1
      = [.pre, .pre]
    ∧ (contractRun (⟨none, none⟩ : Contract Nat) [(⟨true, false⟩, ⟨some (.base 1), none⟩), (⟨true, true⟩, ⟨some (.base 2), none⟩)]).1 = [] := by
  decide

example : modElem ⟨SRef.allOn false, fun _ _ => false, true, false, 100, 101⟩ [(.param 9 1, false)] false (.ptr 2 (.param 1 0), false)
      = some ([.notModifiable (.ptr 2 (.param 1 0))], [(.param 9 1, false)], false)
    ∧ modElem ⟨SRef.allOn false, fun _ _ => false, true, false, 100, 101⟩ [(.param 9 0, false)] false (.ptr 2 (.param 1 0), false)
      = some ([], [(.param 9 0, false), (.ptr 2 (.param 1 0), false)], false)
    ∧ modElem ⟨SRef.allOn false, fun _ _ => false, true, false, 100, 101⟩ [] false (.cvar 2 1 0, false)
      = some ([.internal], [(.special 100 .internal, false), (.cvar 2 1 0, false)], true) :=
  ⟨by decide +kernel, by decide +kernel, by decide +kernel⟩

end Splint
