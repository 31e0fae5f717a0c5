import Verif.Proofs.Init
/-!
# C116: every wrong part of an initializer is reported, and no other
-/
namespace Splint.Init
open Spec

variable {E : Type} {cfg : Cfg E}

theorem known_of_ne {t : Ty} (h : t ≠ .unknown) : known t = t := by
  cases t <;> first | rfl | exact absurd rfl h

theorem sound_aux : ∀ (n : Nat) (v : Ini E) (t : Ty) (p : List Nat) (m : Msg), sizeOf v < n →
    (∀ s u w, At cfg t v s u w → ¬ Odd cfg u w) → m.2 ≠ .additional → m.2 ≠ .bug → m ∈ (check cfg p t v).1 →
    ∃ s u w, m.1 = p ++ s ∧ At cfg t v s u w ∧ Fault cfg u w m.2 ∧ cfg.on m.2 = true := by
  intro n
  induction n with
  | zero => intro v t p m h; omega
  | succ n ih =>
    intro v t p m hn hodd ha hb hm
    have himp : m ∈ imp cfg p t → ∃ s u w, m.1 = p ++ s ∧ At cfg t v s u w ∧ Fault cfg u w m.2 ∧ cfg.on m.2 = true := by
      intro h
      obtain ⟨rfl, rfl, hon⟩ := mem_imp.1 h
      exact ⟨[], _, _, by simp, .here, .imptype, hon⟩
    cases v with
    | designated => rw [check] at hm; exact himp hm
    | expr e =>
      rw [check] at hm
      rcases List.mem_append.1 hm with h | h
      · exact himp h
      · split_ifs at h with hok
        · cases h
        · obtain ⟨rfl, hon⟩ := mem_opt.1 h
          refine ⟨[], _, _, by simp, .here, ?_, hon⟩
          by_cases ht : t = .unknown
          · subst ht; exact .mismatchInt (by simpa [known] using hok)
          · exact .mismatch ht (by rw [known_of_ne ht] at hok; simpa using hok)
    | block vs =>
      have hsz : ∀ (i : Nat) (x : Ini E), vs[i]? = some x → sizeOf x < n := by
        intro i x hx
        have := List.sizeOf_lt_of_mem (List.mem_of_getElem? hx)
        simp at hn
        omega
      have harr : ∀ u, t = .arr u ∨ (∃ k, t = .farr u k) → m ∈ (elems cfg p u vs.length 0 0 vs).1 →
          ∃ s u w, m.1 = p ++ s ∧ At cfg t (.block vs) s u w ∧ Fault cfg u w m.2 ∧ cfg.on m.2 = true := by
        intro u ht h
        obtain ⟨j, x, h1, h2, h3⟩ := elems_sound ha vs 0 0 h
        rw [whole_skips h1] at h2
        obtain ⟨s, a, b, h4, h5, h6⟩ := ih x u (p ++ [0 + j]) m (hsz j x h1)
          (fun s a b hat => hodd _ _ _ (.elem ht h2 h1 hat)) ha hb h3
        exact ⟨j :: s, a, b, by simpa using h4, .elem ht h2 h1 h5, h6⟩
      have hsingle : Single t → m ∈ imp cfg p t ++ (opt cfg p .block).1 →
          ∃ s u w, m.1 = p ++ s ∧ At cfg t (.block vs) s u w ∧ Fault cfg u w m.2 ∧ cfg.on m.2 = true := by
        intro ht h
        rcases List.mem_append.1 h with h | h
        · exact himp h
        · obtain ⟨rfl, hon⟩ := mem_opt.1 h
          refine ⟨[], _, _, by simp, .here, .block ht fun e he => ?_, hon⟩
          exact hodd _ _ _ .here ⟨vs, rfl, Or.inr (Or.inl ⟨ht, e, he⟩)⟩
      cases t with
      | scalar k => rw [check] at hm; exact hsingle (Or.inr (Or.inl ⟨k, rfl⟩)) hm
      | unknown => rw [check] at hm; exact hsingle (Or.inl rfl) hm
      | ptr u => exact absurd ⟨vs, rfl, Or.inl ⟨u, rfl⟩⟩ (hodd _ _ _ .here)
      | arr u => rw [check] at hm; exact harr u (Or.inl rfl) hm
      | farr u k =>
        rw [check] at hm
        rcases List.mem_append.1 hm with h | h
        · have hw : ¬ Whole cfg u vs := fun hw => hodd _ _ _ .here ⟨vs, rfl, Or.inr (Or.inr ⟨u, k, rfl, hw⟩)⟩
          rcases mem_sizeMsg.1 h with ⟨hl, rfl, hon⟩ | ⟨hl, rfl, hon⟩
          · exact ⟨[], _, _, by simp, .here, .tooLarge hw hl, hon⟩
          · exact ⟨[], _, _, by simp, .here, .tooSmall hw hl, hon⟩
        · exact harr u (Or.inr ⟨k, rfl⟩) h
      | struct fs =>
        rw [check] at hm
        simp only [known] at hm
        split_ifs at hm with h1 h2
        · obtain ⟨rfl, hon⟩ := mem_opt.1 hm
          exact ⟨[], _, _, by simp, .here, .fewFields h2, hon⟩
        · obtain ⟨rfl, hon⟩ := mem_opt.1 hm
          exact ⟨[], _, _, by simp, .here, .manyFields (by omega), hon⟩
        · obtain ⟨j, f, x, h3, h4, h5⟩ := (mem_fields fs vs 0).1 hm
          obtain ⟨s, a, b, h6, h7, h8⟩ := ih x f (p ++ [0 + j]) m (hsz j x h4)
            (fun s a b hat => hodd _ _ _ (.field h3 h4 hat)) ha hb h5
          exact ⟨j :: s, a, b, by simpa using h6, .field h3 h4 h7, h8⟩
      | union fs =>
        rw [check] at hm
        simp only [known] at hm
        split_ifs at hm with h1
        · obtain ⟨rfl, hon⟩ := mem_opt.1 hm
          exact ⟨[], _, _, by simp, .here, .union h1, hon⟩
        · cases fs with
          | nil => simp only [List.mem_singleton] at hm; rw [hm] at hb; exact absurd rfl hb
          | cons f fs =>
            obtain ⟨j, g, x, h3, h4, h5⟩ := (mem_fields [f] vs 0).1 hm
            cases j with
            | succ j => simp at h3
            | zero =>
              simp only [List.getElem?_cons_zero, Option.some.injEq] at h3
              subst h3
              cases vs with
              | nil => simp at h4
              | cons y ys =>
                simp only [List.getElem?_cons_zero, Option.some.injEq] at h4
                subst h4
                obtain ⟨s, a, b, h6, h7, h8⟩ := ih y f (p ++ [0 + 0]) m (hsz 0 y rfl)
                  (fun s a b hat => hodd _ _ _ (.member hat)) ha hb h5
                exact ⟨0 :: s, a, b, by simpa using h6, .member h7, h8⟩

/-- What is wrong with a part itself is reported there. -/
theorem fault_here {t : Ty} {v : Ini E} {k : Kind} {p : List Nat} (hodd : ¬ Odd cfg t v) (hf : Fault cfg t v k)
    (hon : cfg.on k = true) : (p, k) ∈ (check cfg p t v).1 := by
  cases hf with
  | imptype =>
    cases v with
    | expr e => rw [check]; exact List.mem_append_left _ (mem_imp.2 ⟨rfl, rfl, hon⟩)
    | designated => rw [check]; exact mem_imp.2 ⟨rfl, rfl, hon⟩
    | block vs => rw [check]; exact List.mem_append_left _ (mem_imp.2 ⟨rfl, rfl, hon⟩)
  | mismatch ht h =>
    rw [check]
    refine List.mem_append_right _ ?_
    rw [known_of_ne ht, h]
    exact mem_opt.2 ⟨rfl, hon⟩
  | mismatchInt h =>
    rw [check]
    refine List.mem_append_right _ ?_
    simp only [known, h]
    exact mem_opt.2 ⟨rfl, hon⟩
  | tooLarge hw hl => rw [check]; exact List.mem_append_left _ (mem_sizeMsg.2 (Or.inl ⟨hl, rfl, hon⟩))
  | tooSmall hw hl => rw [check]; exact List.mem_append_left _ (mem_sizeMsg.2 (Or.inr ⟨hl, rfl, hon⟩))
  | fewFields hl =>
    rw [check]
    simp only [known]
    rw [if_pos (by omega), if_pos hl]
    exact mem_opt.2 ⟨rfl, hon⟩
  | manyFields hl =>
    rw [check]
    simp only [known]
    rw [if_pos (by omega), if_neg (by omega)]
    exact mem_opt.2 ⟨rfl, hon⟩
  | union hl =>
    rw [check]
    simp only [known]
    rw [if_pos hl]
    exact mem_opt.2 ⟨rfl, hon⟩
  | block hs he =>
    rcases hs with rfl | ⟨k, rfl⟩ | ⟨u, rfl⟩
    · rw [check]; exact List.mem_append_right _ (mem_opt.2 ⟨rfl, hon⟩)
    · rw [check]; exact List.mem_append_right _ (mem_opt.2 ⟨rfl, hon⟩)
    · exact absurd ⟨_, rfl, Or.inl ⟨u, rfl⟩⟩ hodd

theorem not_whole_skips {u : Ty} {vs : List (Ini E)} {i : Nat} {v : Ini E} (hv : vs[i]? = some v)
    (h : ¬ Whole cfg u vs) : ¬ Skips cfg vs.length u v := by
  rwa [whole_skips hv]

/-- messages about a part are messages about the whole, or hidden behind others -/
theorem lift {t : Ty} {v : Ini E} {s : List Nat} {u : Ty} {w : Ini E} (hat : At cfg t v s u w) :
    ∀ (p : List Nat), (∀ s u w, At cfg t v s u w → ¬ Odd cfg u w ∧ Complete u w) →
      ((check cfg (p ++ s) u w).1 ≠ [] → (check cfg p t v).1 ≠ [])
      ∧ ((∀ s u vs, At cfg t v s u (.block vs) → vs.length ≤ 6) →
        ∀ m, m ∈ (check cfg (p ++ s) u w).1 → m ∈ (check cfg p t v).1) := by
  induction hat with
  | here => intro p _; simp
  | @elem t u vs i v s w z ht hw hv hat ih =>
    intro p h
    obtain ⟨ih1, ih2⟩ := ih (p ++ [i]) fun s a b hab => h _ _ _ (.elem ht hw hv hab)
    have hs := not_whole_skips hv hw
    have e : p ++ i :: s = p ++ [i] ++ s := by simp
    rw [e]
    have hcheck : ∀ m, m ∈ (elems cfg p u vs.length 0 0 vs).1 → m ∈ (check cfg p t (.block vs)).1 := by
      intro m hm
      rcases ht with rfl | ⟨n, rfl⟩ <;> rw [check]
      · exact hm
      · exact List.mem_append_right _ hm
    refine ⟨fun hm => ?_, fun h6 m hm => hcheck m ?_⟩
    · have := elems_verdict hs vs 0 0 i hv (by simpa using ih1 hm)
      obtain ⟨m, hm⟩ := List.exists_mem_of_ne_nil _ this
      exact List.ne_nil_of_mem (hcheck m hm)
    · exact elems_complete (h6 [] _ _ .here) hs vs 0 0 i hv
        (by simpa using ih2 (fun s a b hab => h6 _ _ _ (.elem ht hw hv hab)) m hm)
  | @field fs f vs i v s w z hf hv hat ih =>
    intro p h
    obtain ⟨ih1, ih2⟩ := ih (p ++ [i]) fun s a b hab => h _ _ _ (.field hf hv hab)
    have e : p ++ i :: s = p ++ [i] ++ s := by simp
    rw [e]
    have hcheck : ∀ m, m ∈ (check cfg (p ++ [i]) f v).1 → m ∈ (check cfg p (.struct fs) (.block vs)).1 := by
      intro m hm
      rw [check]
      simp only [known]
      rw [if_neg (by simpa using ((h _ _ _ .here).2 vs rfl).1 fs rfl)]
      exact (mem_fields fs vs 0).2 ⟨i, f, v, hf, hv, by simpa using hm⟩
    refine ⟨fun hm => ?_, fun h6 m hm => hcheck m (ih2 (fun s a b hab => h6 _ _ _ (.field hf hv hab)) m hm)⟩
    obtain ⟨m, hm⟩ := List.exists_mem_of_ne_nil _ (ih1 hm)
    exact List.ne_nil_of_mem (hcheck m hm)
  | @member f fs v vs s w z hat ih =>
    intro p h
    obtain ⟨ih1, ih2⟩ := ih (p ++ [0]) fun s a b hab => h _ _ _ (.member hab)
    have e : p ++ 0 :: s = p ++ [0] ++ s := by simp
    rw [e]
    have hcheck : ∀ m, m ∈ (check cfg (p ++ [0]) f v).1 → m ∈ (check cfg p (.union (f :: fs)) (.block (v :: vs))).1 := by
      intro m hm
      rw [check]
      simp only [known]
      rw [if_neg (by simpa using ((h _ _ _ .here).2 (v :: vs) rfl).2 _ rfl)]
      exact (mem_fields [f] (v :: vs) 0).2 ⟨0, f, v, rfl, rfl, by simpa using hm⟩
    refine ⟨fun hm => ?_, fun h6 m hm => hcheck m (ih2 (fun s a b hab => h6 _ _ _ (.member hab)) m hm)⟩
    obtain ⟨m, hm⟩ := List.exists_mem_of_ne_nil _ (ih1 hm)
    exact List.ne_nil_of_mem (hcheck m hm)
  | @single t e hs =>
    intro p h
    exact absurd ⟨[.expr e], rfl, Or.inr (Or.inl ⟨hs, e, rfl⟩)⟩ (h _ _ _ .here).1

end Splint.Init

namespace Splint
open Init Init.Spec

/-- A part is reported if and only if something is wrong with it (and the flag is set). -/
def C116_full : Prop :=
  ∀ (E : Type) (cfg : Cfg E) (t : Ty) (v : Ini E) (q : List Nat) (k : Kind),
    (q, k) ∈ (check cfg [] t v).1 ↔ cfg.on k = true ∧ ∃ u w, At cfg t v q u w ∧ Fault cfg u w k

/-- No false alarms, except for braces around single values and around strings for arrays of a given size. -/
theorem C116_sound_partial {E : Type} (cfg : Cfg E) (t : Ty) (v : Ini E) (q : List Nat) (k : Kind)
    (hodd : ∀ s u w, At cfg t v s u w → ¬ Odd cfg u w) (ha : k ≠ .additional) (hb : k ≠ .bug)
    (hm : (q, k) ∈ (check cfg [] t v).1) :
    cfg.on k = true ∧ ∃ u w, At cfg t v q u w ∧ Fault cfg u w k := by
  obtain ⟨s, u, w, h1, h2, h3, h4⟩ := sound_aux (sizeOf v + 1) v t [] (q, k) (by omega) hodd ha hb hm
  simp only [List.nil_append] at h1
  subst h1
  exact ⟨h4, u, w, h2, h3⟩

/-- All that is wrong is reported, if structs and unions are complete and no list is longer than six. -/
theorem C116_complete_partial {E : Type} (cfg : Cfg E) (t : Ty) (v : Ini E) (q : List Nat) (k : Kind)
    (hodd : ∀ s u w, At cfg t v s u w → ¬ Odd cfg u w ∧ Complete u w)
    (h6 : ∀ s u vs, At cfg t v s u (.block vs) → vs.length ≤ 6) (hon : cfg.on k = true)
    (hf : ∃ u w, At cfg t v q u w ∧ Fault cfg u w k) : (q, k) ∈ (check cfg [] t v).1 := by
  obtain ⟨u, w, hat, hf⟩ := hf
  exact (lift hat [] hodd).2 h6 _ (by simpa using fault_here (p := q) (hodd _ _ _ hat).1 hf hon)

/-- However long the lists are, something is reported if anything is wrong. -/
theorem C116_verdict_partial {E : Type} (cfg : Cfg E) (t : Ty) (v : Ini E)
    (hodd : ∀ s u w, At cfg t v s u w → ¬ Odd cfg u w ∧ Complete u w)
    (hf : ∃ q u w k, At cfg t v q u w ∧ Fault cfg u w k ∧ cfg.on k = true) : (check cfg [] t v).1 ≠ [] := by
  obtain ⟨q, u, w, k, hat, hf, hon⟩ := hf
  exact (lift hat [] hodd).1 (List.ne_nil_of_mem (by simpa using fault_here (p := q) (hodd _ _ _ hat).1 hf hon))

/-- The values given to a struct are not looked at if they are not as many as the fields: at most the number is
reported, and nothing if the flag `fullinitblock` is off. -/
theorem C116_struct_hides {E : Type} (cfg : Cfg E) (p : List Nat) (fs : List Ty) (vs : List (Ini E))
    (h : fs.length ≠ vs.length) :
    (check cfg p (.struct fs) (.block vs)).1
      = if fs.length > vs.length then (if cfg.on .fewFields then [(p, .fewFields)] else [])
        else (if cfg.on .manyFields then [(p, .manyFields)] else []) := by
  rw [check]
  simp only [known]
  rw [if_pos h]
  split_ifs with h1 h2 h2 <;> simp [opt, h2]

/-- A pointer is initialized like an array of unknown size: with as many values as are given. -/
theorem C116_pointer_as_array {E : Type} (cfg : Cfg E) (p : List Nat) (u : Ty) (vs : List (Ini E)) :
    check cfg p (.ptr u) (.block vs) = check cfg p (.arr u) (.block vs) := by
  rw [check, check]
  rfl

/-- types of expressions for examples: the type itself, arrays matching pointers -/
def exCfg : Cfg Nat where
  -- 0, 1, 2: an `int`, a pointer to `int`, a string
  ok t e := match t with
    | .scalar 0 => e = 0
    | .ptr (.scalar 0) => e = 1
    | .ptr (.scalar 1) => e = 2
    | .farr (.scalar 1) _ => e = 2
    | _ => false
  isString e := e = 2
  charScalar k := k = 1
  on _ := true

/-- `struct { int a; char *b; } x [2] = { { 1, "a" }, { "b", "c" } }` -/
example : (check exCfg [] (.farr (.struct [.scalar 0, .ptr (.scalar 1)]) 2)
    (.block [.block [.expr 0, .expr 2], .block [.expr 2, .expr 2]])).1 = [([1, 0], .mismatch)] := by decide +kernel

/-- The hypotheses of the theorems above hold for `int a[2] = { 1, "a" }`, and its fault is reported. -/
example : (∀ s u w, At exCfg (.farr (.scalar 0) 2) (.block [.expr 0, .expr 2]) s u w → ¬ Odd exCfg u w ∧ Complete u w)
    ∧ (∃ u w, At exCfg (.farr (.scalar 0) 2) (.block [.expr 0, .expr 2]) [1] u w ∧ Fault exCfg u w .mismatch)
    ∧ ([1], Kind.mismatch) ∈ (check exCfg [] (.farr (.scalar 0) 2) (.block [.expr 0, .expr 2])).1 := by
  have hw : ¬ Whole exCfg (.scalar 0) [.expr 0, .expr 2] := by rintro ⟨-, e, h, -⟩; simp at h
  refine ⟨?_, ⟨.scalar 0, .expr 2, .elem (u := .scalar 0) (i := 1) (Or.inr ⟨2, rfl⟩) hw rfl .here,
    .mismatch (by simp) rfl⟩, by decide +kernel⟩
  intro s u w hat
  cases hat with
  | here =>
    refine ⟨?_, ?_⟩
    · rintro ⟨vs, h, ⟨_, h1⟩ | ⟨h1 | ⟨_, h1⟩ | ⟨_, h1⟩, _⟩ | ⟨_, _, h1, h2⟩⟩ <;> cases h <;> cases h1
      exact hw h2
    · intro vs h
      exact ⟨fun fs h => (by cases h), fun fs h => (by cases h)⟩
  | @elem _ a _ i v q _ _ ht _ hv hat =>
    have ha : a = .scalar 0 := by rcases ht with h | ⟨n, h⟩ <;> cases h; rfl
    subst ha
    have hx : ∃ e, v = .expr e := by
      rcases i with _ | _ | i
      · exact ⟨0, by simpa using hv.symm⟩
      · exact ⟨2, by simpa using hv.symm⟩
      · simp at hv
    obtain ⟨e, rfl⟩ := hx
    cases hat
    exact ⟨fun ⟨_, h, _⟩ => (by cases h), fun _ h => (by cases h)⟩

/-- `int *p = { 1, 2 }` is accepted, `int *p = { &x }` is not -/
example : (check exCfg [] (.ptr (.scalar 0)) (.block [.expr 0, .expr 0])).1 = []
    ∧ (check exCfg [] (.ptr (.scalar 0)) (.block [.expr 1])).1 = [([0], .mismatch)] := by decide +kernel

/-- `char a[3] = { "ab" }` is reported to have too few elements, and `int x = { 1 }` to be in braces -/
example : (check exCfg [] (.farr (.scalar 1) 3) (.block [.expr 2])).1 = [([], .tooSmall)]
    ∧ (check exCfg [] (.scalar 0) (.block [.expr 0])).1 = [([], .block)] := by decide +kernel

/-- `int x = { 1 }` -/
theorem C116_full_is_false : ¬ C116_full := by
  intro h
  obtain ⟨-, u, w, hat, hf⟩ := (h Nat exCfg (.scalar 0) (.block [.expr 0]) [] .block).1 (by decide +kernel)
  cases hat
  cases hf with
  | block _ he => exact he 0 rfl

/-- There would be no message missing. -/
def C116_complete_full : Prop :=
  ∀ (E : Type) (cfg : Cfg E) (t : Ty) (v : Ini E) (q : List Nat) (k : Kind), cfg.on k = true →
    (∃ u w, At cfg t v q u w ∧ Fault cfg u w k) → (q, k) ∈ (check cfg [] t v).1

/-- `struct { int a; int b; } x = { "a" }` -/
theorem C116_complete_full_is_false : ¬ C116_complete_full := by
  intro h
  have h1 := h Nat exCfg (.struct [.scalar 0, .scalar 0]) (.block [.expr 2]) [0] .mismatch rfl
    ⟨.scalar 0, .expr 2, .field (f := .scalar 0) (v := .expr 2) rfl rfl .here, .mismatch (by simp) rfl⟩
  revert h1
  decide +kernel

theorem elems_expr {E : Type} {cfg : Cfg E} (p : List Nat) (u : Ty) (total : Nat) (ht : total > 6)
    (hu : u ≠ .unknown) (hon : cfg.on .mismatch = true) :
    ∀ (es : List E) (i ne : Nat), ne ≤ 3 →
      (elems cfg p u total i ne (es.map .expr)).1.filter (·.2 = .mismatch)
        = (((List.range es.length).filter fun j => es[j]?.map (cfg.ok u) = some false).take (4 - ne)).map
          fun j => (p ++ [i + j], Kind.mismatch) := by
  intro es
  induction es with
  | nil => intro i ne _; simp [elems]
  | cons e es ih =>
    intro i ne hne
    have hsk : ¬ (total = 1 ∧ isStringIni cfg (.expr e) = true ∧ isChar cfg u = true) := by omega
    have himp : imp cfg (p ++ [i]) u = [] := by
      cases u <;> first | rfl | exact absurd rfl hu
    have hcheck : check cfg (p ++ [i]) u (.expr e)
        = if cfg.ok u e then ([], false) else ([(p ++ [i], .mismatch)], true) := by
      rw [check]
      simp only [himp, known_of_ne hu, List.nil_append]
      split_ifs with h
      · rfl
      · simp [opt, hon]
    rw [List.map_cons, elems_cons, if_neg hsk, hcheck, List.length_cons, List.range_succ_eq_map, List.filter_cons]
    have hshift : ∀ n, (((List.map Nat.succ (List.range es.length)).filter fun j =>
          decide ((e :: es)[j]?.map (cfg.ok u) = some false)).take n).map (fun j => (p ++ [i + j], Kind.mismatch))
        = (((List.range es.length).filter fun j => decide (es[j]?.map (cfg.ok u) = some false)).take n).map
          fun j => (p ++ [i + 1 + j], Kind.mismatch) := by
      intro n
      rw [List.filter_map, ← List.map_take, List.map_map]
      have hfun : ((fun j => decide ((e :: es)[j]?.map (cfg.ok u) = some false)) ∘ Nat.succ)
          = fun j => decide (es[j]?.map (cfg.ok u) = some false) := by
        funext j; simp
      rw [hfun]
      refine List.map_congr_left fun j _ => ?_
      simp; omega
    by_cases hok : cfg.ok u e = true
    · have h0 : ¬ (decide ((e :: es)[0]?.map (cfg.ok u) = some false) = true) := by simp [hok]
      rw [if_pos hok, if_neg h0, hshift]
      simpa using ih (i + 1) ne hne
    · have h0 : decide ((e :: es)[0]?.map (cfg.ok u) = some false) = true := by simpa using hok
      rw [if_neg hok, if_pos h0]
      simp only [if_true]
      by_cases h3 : ne = 3
      · subst h3
        simp [ht]
      · rw [if_neg (by omega), show 4 - ne = 4 - (ne + 1) + 1 by omega, List.take_succ_cons, List.map_cons, hshift]
        simpa using ih (i + 1) (ne + 1) (by omega)

/-- In a list of more than six expressions for an array, exactly the first four that do not match are reported. -/
theorem C116_first_four {E : Type} (cfg : Cfg E) (p : List Nat) (u : Ty) (es : List E) (hl : es.length > 6)
    (hu : u ≠ .unknown) (hon : cfg.on .mismatch = true) :
    (check cfg p (.arr u) (.block (es.map .expr))).1.filter (·.2 = .mismatch)
      = (((List.range es.length).filter fun j => es[j]?.map (cfg.ok u) = some false).take 4).map
        fun j => (p ++ [j], Kind.mismatch) := by
  rw [check]
  simp only [known, List.length_map]
  rw [elems_expr p u es.length hl hu hon es 0 0 (by omega)]
  simp

example : ((check exCfg [] (.arr (.scalar 0)) (.block ([1, 0, 1, 1, 0, 2, 1].map .expr))).1)
    = [([0], .mismatch), ([2], .mismatch), ([3], .mismatch), ([5], .mismatch), ([], .additional)] := by decide +kernel

/-- Braces may be left out in C (6.7.8, 20): `int a[2][2] = { 1, 2, 3, 4 }`. An initializer that gives all elements of
an array of arrays so is always reported to be too large, and each of its values not to be an array. -/
theorem C116_elided_braces {E : Type} (cfg : Cfg E) (p : List Nat) (u : Ty) (n m : Nat) (es : List E)
    (hn : 0 < n) (hm : 1 < m) (hl : es.length = n * m) (hon : cfg.on .tooLarge = true) :
    (p, .tooLarge) ∈ (check cfg p (.farr (.farr u m) n) (.block (es.map .expr))).1 := by
  rw [check]
  refine List.mem_append_left _ (mem_sizeMsg.2 (Or.inl ⟨?_, rfl, hon⟩))
  rw [List.length_map, hl]
  calc n = n * 1 := by omega
    _ < n * m := Nat.mul_lt_mul_of_pos_left hm hn

example : (check exCfg [] (.farr (.farr (.scalar 0) 2) 2) (.block ([0, 0, 0, 0].map .expr))).1
    = [([], .tooLarge), ([0], .mismatch), ([1], .mismatch), ([2], .mismatch), ([3], .mismatch)] := by decide +kernel

/-- An initializer with a designator is counted like another, and nothing in it is looked at. -/
theorem C116_designated {E : Type} (cfg : Cfg E) (p : List Nat) (t : Ty) (ht : t ≠ .unknown) :
    check cfg p t (.designated : Ini E) = ([], false) := by
  rw [check]
  cases t <;> first | rfl | exact absurd rfl ht

/-- `int a[3] = { [2] = 1 }` is reported to have one element only -/
example : (check exCfg [] (.farr (.scalar 0) 3) (.block [.designated])).1 = [([], .tooSmall)] := by decide +kernel

/-- A message that counts as an error of the part of the list it is in -/
def counts (m : Msg) : Bool := m.2 ≠ .imptype ∧ m.2 ≠ .bug

theorem opt_counts {E : Type} {cfg : Cfg E} (p : List Nat) (k : Kind) (h : k ≠ .imptype ∧ k ≠ .bug) :
    (opt cfg p k).2 = (opt cfg p k).1.any counts := by
  unfold opt
  split_ifs <;> simp [counts, h]

theorem imp_counts {E : Type} {cfg : Cfg E} (p : List Nat) (t : Ty) : (imp cfg p t).any counts = false := by
  cases t <;> simp [imp, opt]
  split_ifs <;> simp [counts]

theorem elems_counts {E : Type} {cfg : Cfg E} (p : List Nat) (u : Ty) (total : Nat) : ∀ (vs : List (Ini E)) (i ne : Nat),
    (∀ q v, v ∈ vs → (check cfg q u v).2 = (check cfg q u v).1.any counts) →
      (elems cfg p u total i ne vs).2 = (elems cfg p u total i ne vs).1.any counts := by
  intro vs
  induction vs with
  | nil => intro i ne _; simp [elems]
  | cons v vs ih =>
    intro i ne h
    have hv := h (p ++ [i]) v (by simp)
    have hvs := fun j k => ih j k fun q w hw => h q w (by simp [hw])
    rw [elems_cons]
    split_ifs with h1 h2 h3
    · exact hvs _ _
    · simp [List.any_append, ← hv, h2]
    · simp [List.any_append, ← hv, h2]
    · have h2' : (check cfg (p ++ [i]) u v).2 = false := by simpa using h2
      simp only [List.any_append, ← hv, h2', Bool.false_or]
      exact hvs _ _

theorem fields_counts {E : Type} {cfg : Cfg E} (p : List Nat) : ∀ (fs : List Ty) (vs : List (Ini E)) (i : Nat),
    (∀ q f v, v ∈ vs → (check cfg q f v).2 = (check cfg q f v).1.any counts) →
      (fields cfg p i fs vs).2 = (fields cfg p i fs vs).1.any counts := by
  intro fs
  induction fs with
  | nil => intro vs i _; simp [fields]
  | cons f fs ih =>
    intro vs i h
    cases vs with
    | nil => simp [fields]
    | cons v vs =>
      rw [fields]
      simp only [List.any_append, h _ f v (by simp : v ∈ v :: vs), ih vs (i + 1) fun q g w hw => h q g w (by simp [hw])]

/-- A part counts as one of the four errors after which a long list is left if and only if a message about it is
printed, other than that its type is not known. -/
theorem C116_counted {E : Type} (cfg : Cfg E) (p : List Nat) (t : Ty) (v : Ini E) :
    (check cfg p t v).2 = (check cfg p t v).1.any counts := by
  suffices h : ∀ (n : Nat) (v : Ini E) (t : Ty) (p : List Nat), sizeOf v < n →
      (check cfg p t v).2 = (check cfg p t v).1.any counts from h _ v t p (Nat.lt_succ_self _)
  intro n
  induction n with
  | zero => intro v t p h; omega
  | succ n ih =>
    intro v t p hn
    cases v with
    | designated => rw [check, imp_counts]
    | expr e =>
      rw [check]
      simp only [List.any_append, imp_counts, Bool.false_or]
      split_ifs
      · rfl
      · exact opt_counts _ _ (by decide)
    | block vs =>
      have hsz : ∀ x ∈ vs, sizeOf x < n := by
        intro x hx
        have := List.sizeOf_lt_of_mem hx
        simp at hn
        omega
      have he : ∀ u, (elems cfg p u vs.length 0 0 vs).2 = (elems cfg p u vs.length 0 0 vs).1.any counts :=
        fun u => elems_counts p u _ vs 0 0 fun q x hx => ih x u q (hsz x hx)
      have hf : ∀ fs, (fields cfg p 0 fs vs).2 = (fields cfg p 0 fs vs).1.any counts :=
        fun fs => fields_counts p fs vs 0 fun q f x hx => ih x f q (hsz x hx)
      have hb : (opt cfg p .block).2 = (imp cfg p t ++ (opt cfg p .block).1).any counts := by
        rw [List.any_append, imp_counts, Bool.false_or]
        exact opt_counts _ _ (by decide)
      cases t with
      | scalar k => rw [check]; exact hb
      | unknown => rw [check]; exact hb
      | ptr u => rw [check]; exact he u
      | arr u => rw [check]; exact he u
      | farr u k =>
        rw [check]
        simp only [known, List.any_append, he u]
        congr 1
        unfold sizeMsg
        split_ifs
        · exact opt_counts _ _ (by decide)
        · exact opt_counts _ _ (by decide)
        · rfl
      | struct fs =>
        rw [check]
        simp only [known]
        split_ifs
        · exact opt_counts _ _ (by decide)
        · exact opt_counts _ _ (by decide)
        · exact hf fs
      | union fs =>
        rw [check]
        simp only [known]
        split_ifs
        · exact opt_counts _ _ (by decide)
        · cases fs with
          | nil => simp [counts]
          | cons f fs => exact hf [f]

/-- an error in the first field of a struct is an error of the struct -/
example : (check exCfg [] (.struct [.scalar 0, .scalar 0]) (.block [.expr 2, .expr 0]))
    = ([([0], .mismatch)], true) := by decide +kernel

end Splint
