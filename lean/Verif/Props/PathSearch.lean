import Verif.Props.Paths
/-! C97: system directories and search lists.  C98: extensions and base names. -/
namespace Splint
open Path Path.Spec

/-! ### C97 -/

theorem PathEx.splitAt_ne (sep : Char) (s : List Char) : splitAt sep s ≠ [] := by
  cases s with
  | nil => simp [splitAt]
  | cons c s =>
    rw [splitAt]
    split_ifs
    · simp
    · split <;> simp

theorem PathEx.intercalate_cons (sep : Char) (w : List Char) {ws : List (List Char)} (h : ws ≠ []) :
    List.intercalate [sep] (w :: ws) = w ++ sep :: List.intercalate [sep] ws := by
  cases ws with
  | nil => exact absurd rfl h
  | cons x xs => simp [List.intercalate, List.intersperse]

/-- The parts of a text are determined, and found. -/
theorem PathEx.split_iff {sep : Char} {s : List Char} {ws : List (List Char)} :
    IsSplit sep s ws ↔ splitAt sep s = ws := by
  have plain : ∀ w : List Char, sep ∉ w → splitAt sep w = [w] := by
    intro w
    induction w with
    | nil => intro _; rfl
    | cons c w ih =>
      intro h
      rw [splitAt, if_neg (fun e => h (by simp [e])), ih (fun e => h (by simp [e]))]
  have app : ∀ (w t : List Char), sep ∉ w → splitAt sep (w ++ sep :: t) = w :: splitAt sep t := by
    intro w t
    induction w with
    | nil => intro _; rw [List.nil_append, splitAt, if_pos rfl]
    | cons c w ih =>
      intro h
      rw [List.cons_append, splitAt, if_neg (fun e => h (by simp [e])),
        ih (fun e => h (by simp [e]))]
  constructor
  · rintro ⟨hne, hw, rfl⟩
    induction ws with
    | nil => exact absurd rfl hne
    | cons w ws ih =>
      cases ws with
      | nil =>
        have : List.intercalate [sep] [w] = w := by simp [List.intercalate]
        rw [this]
        exact plain w (hw w (by simp))
      | cons x xs =>
        rw [PathEx.intercalate_cons _ _ (by simp), app _ _ (hw w (by simp)),
          ih (by simp) (fun y hy => hw y (by simp [hy]))]
  · rintro rfl
    refine ⟨PathEx.splitAt_ne _ _, ?_, ?_⟩
    · induction s with
      | nil => simp [splitAt]
      | cons c s ih =>
        rw [splitAt]
        split_ifs with h
        · intro w hw
          rcases List.mem_cons.1 hw with rfl | hw
          · simp
          · exact ih w hw
        · cases hs : splitAt sep s with
          | nil => exact absurd hs (PathEx.splitAt_ne _ _)
          | cons x xs =>
            rw [hs] at ih
            intro w hw
            rcases List.mem_cons.1 hw with rfl | hw
            · intro hm
              rcases List.mem_cons.1 hm with e | hm
              · exact h e.symm
              · exact ih x (by simp) hm
            · exact ih w (by simp [hw])
    · induction s with
      | nil => rfl
      | cons c s ih =>
        rw [splitAt]
        split_ifs with h
        · rw [PathEx.intercalate_cons _ _ (PathEx.splitAt_ne _ _), ← ih, h]
          rfl
        · cases hs : splitAt sep s with
          | nil => exact absurd hs (PathEx.splitAt_ne _ _)
          | cons x xs =>
            rw [hs] at ih
            simp only
            cases xs with
            | nil =>
              have e : ∀ w : List Char, List.intercalate [sep] [w] = w := by
                intro w; simp [List.intercalate]
              rw [e] at ih ⊢
              rw [ih]
            | cons y ys =>
              rw [PathEx.intercalate_cons _ _ (by simp)] at ih ⊢
              rw [ih]
              rfl

/-- A file is a system file exactly when it is in one of the directories of `sysdirs`. -/
def C97_full : Prop :=
  ∀ (sysdirs f : Name) (ds : List Name), IsSplit ':' sysdirs ds → Normal f →
    (isSystemDir sysdirs f = true ↔ ∃ d ∈ ds, d ≠ [] ∧ Below d f)

/-- With `/usr/include` the file `/usr/include2/x.h` is a system file. -/
theorem C97_full_is_false : ¬C97_full := by
  intro h
  have h1 := h c!"/usr/include" c!"/usr/include2/x.h" [c!"/usr/include"]
    (PathEx.split_iff.2 (by decide +kernel))
    ⟨[c!"usr", c!"include2", c!"x.h"], by simp, PathEx.proper_of (by decide +kernel), by decide +kernel⟩
  have h2 : isSystemDir c!"/usr/include" c!"/usr/include2/x.h" = true := by decide +kernel
  obtain ⟨d, hd, -, r, hr⟩ := h1.1 h2
  rw [List.mem_singleton] at hd
  subst hd
  simp at hr

/-- What happens exactly: the name is compared as text, and the directories after an empty element do
not count. -/
theorem C97_exactly {sysdirs f : Name} {ds : List Name} (h : IsSplit ':' sysdirs ds) (hf : f ≠ []) :
    isSystemDir sysdirs f = true ↔ ∃ d ∈ ds.takeWhile (· ≠ []), d <+: f := by
  unfold isSystemDir
  rw [PathEx.split_iff.1 h]
  clear h
  induction ds with
  | nil => simp [systemLoop]
  | cons d ds ih =>
    rw [systemLoop]
    by_cases hd : d = []
    · rw [if_pos hd, hd]; simp
    · rw [if_neg hd, List.takeWhile_cons_of_pos (by simpa using hd)]
      simp only [if_neg hf]
      by_cases hp : d.isPrefixOf f = true
      · rw [if_pos hp]
        exact ⟨fun _ => ⟨d, by simp, List.isPrefixOf_iff_prefix.1 hp⟩, fun _ => rfl⟩
      · rw [if_neg hp, ih]
        constructor
        · rintro ⟨x, hx, hxf⟩; exact ⟨x, List.mem_cons_of_mem _ hx, hxf⟩
        · rintro ⟨x, hx, hxf⟩
          rcases List.mem_cons.1 hx with rfl | hx
          · exact absurd (List.isPrefixOf_iff_prefix.2 hxf) hp
          · exact ⟨x, hx, hxf⟩

/-- Without empty elements the files in the directories are system files.  Missing: that others are
not (`C97_full_is_false`), and directories after an empty element. -/
theorem C97_partial {sysdirs f : Name} {ds : List Name} (h : IsSplit ':' sysdirs ds)
    (hn : [] ∉ ds) (hb : ∃ d ∈ ds, Below d f) : isSystemDir sysdirs f = true := by
  obtain ⟨d, hd, r, hr⟩ := hb
  rw [C97_exactly h (by rw [hr]; simp)]
  refine ⟨d, ?_, ?_⟩
  · have : ds.takeWhile (fun x => decide (x ≠ [])) = ds := by
      clear h hd
      induction ds with
      | nil => rfl
      | cons x xs ih =>
        rw [List.takeWhile_cons_of_pos (by
          have : x ≠ [] := fun e => hn (by simp [e])
          simpa using this), ih (fun e => hn (by simp [e]))]
    rw [this]
    exact hd
  · rw [hr]; exact List.prefix_append _ _

example : IsSplit ':' c!"/usr/include:/opt/inc" [c!"/usr/include", c!"/opt/inc"]
    ∧ Below c!"/opt/inc" c!"/opt/inc/x.h" ∧ isSystemDir c!"/usr/include:/opt/inc" c!"/opt/inc/x.h"
    ∧ isSystemDir c!"/usr/include::/opt/inc" c!"/opt/inc/x.h" = false :=
  ⟨PathEx.split_iff.2 (by decide +kernel), ⟨c!"x.h", by decide +kernel⟩, by decide +kernel,
   by decide +kernel⟩

/-! ### Search lists -/

/-- "Loop through directories in path looking for the first occurrence of the file." -/
def C97_search_full : Prop :=
  ∀ (ok : Name → Bool) (path file : Name) (ds : List Name), IsSplit ':' path ds →
    file.head? ≠ some '/' → (∀ d ∈ ds, (entry d file).length < maxPath) →
    getPath ok (some path) file
      = match (ds.map (entry · file)).find? ok with
        | some n => .found n
        | none => .notFound

theorem PathEx.splitAt_eq (s : Name) :
    splitAt ':' s = s.takeWhile (· ≠ ':') :: match s.dropWhile (· ≠ ':') with
      | [] => []
      | _ :: t => splitAt ':' t := by
  induction s with
  | nil => rfl
  | cons c s ih =>
    rw [splitAt]
    by_cases h : c = ':'
    · rw [if_pos h, List.takeWhile_cons_of_neg (by simpa using h),
        List.dropWhile_cons_of_neg (by simpa using h)]
    · rw [if_neg h, List.takeWhile_cons_of_pos (by simpa using h),
        List.dropWhile_cons_of_pos (by simpa using h), ih]

/-- The first element that is too long or has the file. -/
def PathEx.search (ok : Name → Bool) (file : Name) : List Name → Found
  | [] => .notFound
  | d :: ds =>
    if maxPath < d.length + file.length + 2 then .tooLong
    else if ok (d ++ '/' :: file) then .found (d ++ '/' :: file)
    else search ok file ds

theorem PathEx.pathLoop_step (ok : Name → Bool) (file : Name) {path d r : Name}
    (h : nextdir path = some (d, r)) :
    pathLoop ok file path = if maxPath < d.length + file.length + 2 then .tooLong
      else if ok (d ++ '/' :: file) then .found (d ++ '/' :: file)
      else pathLoop ok file r := by
  rw [pathLoop.eq_def]
  split
  · rename_i h'; rw [h] at h'; cases h'
  · rename_i h'
    rw [h] at h'
    cases h'
    by_cases hl : maxPath < d.length + file.length + 2
    · rw [if_pos hl, if_neg (by omega)]
    · rw [if_neg hl, if_pos (by omega)]

theorem PathEx.pathLoop_nil (ok : Name → Bool) (file : Name) : pathLoop ok file [] = .notFound := by
  rw [pathLoop.eq_def]; rfl

theorem PathEx.dropWhile_shape (s : Name) :
    s.dropWhile (· ≠ ':') = [] ∨ ∃ t, s.dropWhile (· ≠ ':') = ':' :: t ∧ t.length < s.length := by
  cases h : s.dropWhile (· ≠ ':') with
  | nil => exact Or.inl rfl
  | cons c t =>
    have h1 := List.head_dropWhile_not (fun c : Char => decide (c ≠ ':')) (l := s) (by rw [h]; simp)
    simp only [h, List.head_cons, decide_eq_false_iff_not, not_not] at h1
    refine Or.inr ⟨t, by rw [h1], ?_⟩
    have := (List.dropWhile_sublist (fun c : Char => decide (c ≠ ':')) (l := s)).length_le
    rw [h, List.length_cons] at this
    omega

theorem PathEx.pathLoop_colon (ok : Name → Bool) (file : Name) : ∀ (n : Nat) (s : Name),
    s.length ≤ n → pathLoop ok file (':' :: s) = PathEx.search ok file (splitAt ':' s) := by
  intro n
  induction n with
  | zero =>
    intro s h
    have : s = [] := List.length_eq_zero_iff.1 (by omega)
    subst this
    rw [PathEx.pathLoop_step ok file (d := []) (r := []) rfl, PathEx.pathLoop_nil]
    rfl
  | succ n ih =>
    intro s h
    rw [PathEx.pathLoop_step ok file (d := s.takeWhile (· ≠ ':')) (r := s.dropWhile (· ≠ ':')) rfl,
      PathEx.splitAt_eq s, PathEx.search]
    rcases PathEx.dropWhile_shape s with hs | ⟨t, ht, hl⟩
    · rw [hs, PathEx.pathLoop_nil]; rfl
    · rw [ht, ih t (by omega)]

/-- What is looked at: an empty first element is left out. -/
theorem PathEx.pathLoop_eq (ok : Name → Bool) (file path : Name) :
    pathLoop ok file path = PathEx.search ok file
      (if (splitAt ':' path).head? = some [] then (splitAt ':' path).tail else splitAt ':' path) := by
  cases path with
  | nil => rw [PathEx.pathLoop_nil]; rfl
  | cons c s =>
    by_cases hc : c = ':'
    · subst hc
      rw [PathEx.pathLoop_colon ok file _ s (le_refl _), splitAt, if_pos rfl]
      rfl
    · have hn : nextdir (c :: s)
          = some ((c :: s).takeWhile (· ≠ ':'), (c :: s).dropWhile (· ≠ ':')) := by
        unfold nextdir
        split
        · rename_i h; cases h
        · rename_i h; exact absurd (List.cons.inj h).1 hc
        · rfl
      rw [PathEx.pathLoop_step ok file hn, PathEx.splitAt_eq (c :: s)]
      have hh : ¬(some ((c :: s).takeWhile (fun x => decide (x ≠ ':'))) = some []) := by
        rw [List.takeWhile_cons_of_pos (by simpa using hc)]; simp
      rw [List.head?_cons, if_neg hh, PathEx.search]
      rcases PathEx.dropWhile_shape (c :: s) with hs | ⟨t, ht, hl⟩
      · rw [hs, PathEx.pathLoop_nil]; rfl
      · rw [ht, PathEx.pathLoop_colon ok file _ t (le_refl _)]

theorem PathEx.search_find (ok : Name → Bool) (file : Name) (ds : List Name)
    (h : ∀ d ∈ ds, d.length + file.length + 2 ≤ maxPath) :
    PathEx.search ok file ds = match (ds.map (· ++ '/' :: file)).find? ok with
      | some n => .found n
      | none => .notFound := by
  induction ds with
  | nil => rfl
  | cons d ds ih =>
    rw [PathEx.search, if_neg (by have := h d (by simp); omega), List.map_cons, List.find?_cons]
    by_cases hk : ok (d ++ '/' :: file) = true
    · rw [if_pos hk, hk]
    · rw [if_neg hk, ih (fun x hx => h x (by simp [hx]))]
      simp only [Bool.not_eq_true] at hk
      rw [hk]

/-- With the list `lib:` the file `x.h` of the current directory is not found. -/
theorem C97_search_full_is_false : ¬C97_search_full := by
  intro h
  have h1 := h (fun n => n == c!"x.h") c!"lib:" c!"x.h" [c!"lib", []]
    (PathEx.split_iff.2 (by decide +kernel)) (by decide +kernel) (by decide +kernel)
  rw [show getPath (fun n => n == c!"x.h") (some c!"lib:") c!"x.h"
    = pathLoop (fun n => n == c!"x.h") c!"x.h" c!"lib:" from rfl, PathEx.pathLoop_eq] at h1
  exact absurd h1 (by decide +kernel)

/-- What happens exactly: an empty first element is left out, every other empty element stands for the
root, and an element that is too long for the buffer ends the search. -/
theorem C97_search_exactly (ok : Name → Bool) {path file : Name} {ds : List Name}
    (h : IsSplit ':' path ds) (hf : file.head? ≠ some '/') (r : Found) :
    getPath ok (some path) file = r ↔
      ∃ es, (ds = [] :: es ∨ (es = ds ∧ ds.head? ≠ some [])) ∧
        ((∃ a d b, es = a ++ d :: b ∧ (∀ x ∈ a, x.length + file.length + 2 ≤ 4096
              ∧ ok (x ++ '/' :: file) = false)
            ∧ ((4096 < d.length + file.length + 2 ∧ r = .tooLong)
              ∨ (d.length + file.length + 2 ≤ 4096 ∧ ok (d ++ '/' :: file) = true
                ∧ r = .found (d ++ '/' :: file))))
        ∨ ((∀ x ∈ es, x.length + file.length + 2 ≤ 4096 ∧ ok (x ++ '/' :: file) = false)
          ∧ r = .notFound)) := by
  have hg : getPath ok (some path) file = pathLoop ok file path := by
    unfold getPath; simp only [if_neg hf]
  rw [hg, PathEx.pathLoop_eq, PathEx.split_iff.1 h]
  have key : ∀ es : List Name, PathEx.search ok file es = r ↔
      ((∃ a d b, es = a ++ d :: b ∧ (∀ x ∈ a, x.length + file.length + 2 ≤ 4096
              ∧ ok (x ++ '/' :: file) = false)
            ∧ ((4096 < d.length + file.length + 2 ∧ r = .tooLong)
              ∨ (d.length + file.length + 2 ≤ 4096 ∧ ok (d ++ '/' :: file) = true
                ∧ r = .found (d ++ '/' :: file))))
        ∨ ((∀ x ∈ es, x.length + file.length + 2 ≤ 4096 ∧ ok (x ++ '/' :: file) = false)
          ∧ r = .notFound)) := by
    intro es
    induction es with
    | nil =>
      constructor
      · rintro rfl; exact Or.inr ⟨by simp, rfl⟩
      · rintro (⟨a, d, b, he, -⟩ | ⟨-, rfl⟩)
        · simp at he
        · rfl
    | cons d ds ih =>
      rw [PathEx.search]
      by_cases h1 : maxPath < d.length + file.length + 2
      · rw [if_pos h1]
        unfold maxPath at h1
        constructor
        · rintro rfl; exact Or.inl ⟨[], d, ds, rfl, by simp, Or.inl ⟨h1, rfl⟩⟩
        · rintro (⟨a, d', b, he, ha, hd⟩ | ⟨ha, -⟩)
          · cases a with
            | nil =>
              cases he
              rcases hd with ⟨-, rfl⟩ | ⟨h2, -⟩
              · rfl
              · omega
            | cons x a =>
              cases he
              have := (ha d (by simp)).1
              omega
          · have := (ha d (by simp)).1
            omega
      · rw [if_neg h1]
        unfold maxPath at h1
        by_cases h2 : ok (d ++ '/' :: file) = true
        · rw [if_pos h2]
          constructor
          · rintro rfl; exact Or.inl ⟨[], d, ds, rfl, by simp, Or.inr ⟨by omega, h2, rfl⟩⟩
          · rintro (⟨a, d', b, he, ha, hd⟩ | ⟨ha, -⟩)
            · cases a with
              | nil =>
                cases he
                rcases hd with ⟨h3, -⟩ | ⟨-, -, rfl⟩
                · omega
                · rfl
              | cons x a =>
                cases he
                have := (ha d (by simp)).2
                rw [h2] at this
                cases this
            · have := (ha d (by simp)).2
              rw [h2] at this
              cases this
        · rw [if_neg h2, ih]
          simp only [Bool.not_eq_true] at h2
          constructor
          · rintro (⟨a, d', b, rfl, ha, hd⟩ | ⟨ha, hr⟩)
            · refine Or.inl ⟨d :: a, d', b, rfl, ?_, hd⟩
              intro x hx
              rcases List.mem_cons.1 hx with rfl | hx
              · exact ⟨by omega, h2⟩
              · exact ha x hx
            · refine Or.inr ⟨?_, hr⟩
              intro x hx
              rcases List.mem_cons.1 hx with rfl | hx
              · exact ⟨by omega, h2⟩
              · exact ha x hx
          · rintro (⟨a, d', b, he, ha, hd⟩ | ⟨ha, hr⟩)
            · cases a with
              | nil =>
                cases he
                rcases hd with ⟨h3, -⟩ | ⟨-, h3, -⟩
                · omega
                · rw [h2] at h3; cases h3
              | cons x a =>
                cases he
                exact Or.inl ⟨a, d', b, rfl, fun x hx => ha x (by simp [hx]), hd⟩
            · exact Or.inr ⟨fun x hx => ha x (by simp [hx]), hr⟩
  cases ds with
  | nil => exact absurd rfl h.1
  | cons d ds =>
    by_cases hd : d = []
    · subst hd
      rw [List.head?_cons, if_pos rfl, List.tail_cons, key]
      constructor
      · intro hk; exact ⟨ds, Or.inl rfl, hk⟩
      · rintro ⟨es, (he | ⟨-, he⟩), hk⟩
        · cases he; exact hk
        · exact absurd rfl he
    · rw [List.head?_cons, if_neg (by simpa using hd), key]
      constructor
      · intro hk; exact ⟨d :: ds, Or.inr ⟨rfl, by simpa using hd⟩, hk⟩
      · rintro ⟨es, (he | ⟨rfl, -⟩), hk⟩
        · exact absurd (List.cons.inj he).1 hd
        · exact hk

/-- Without empty elements the search is right.  Missing: empty elements
(`C97_search_full_is_false`). -/
theorem C97_search_partial (ok : Name → Bool) {path file : Name} {ds : List Name}
    (h : IsSplit ':' path ds) (hf : file.head? ≠ some '/') (hn : [] ∉ ds)
    (hl : ∀ d ∈ ds, (entry d file).length < 4096) :
    getPath ok (some path) file
      = match (ds.map (entry · file)).find? ok with
        | some n => .found n
        | none => .notFound := by
  have hg : getPath ok (some path) file = pathLoop ok file path := by
    unfold getPath; simp only [if_neg hf]
  have he : ∀ d ∈ ds, entry d file = d ++ '/' :: file := by
    intro d hd
    unfold entry
    rw [if_neg (by rintro rfl; exact hn hd)]
  rw [hg, PathEx.pathLoop_eq, PathEx.split_iff.1 h, if_neg, PathEx.search_find]
  · rw [List.map_congr_left (fun d hd => (he d hd).symm)]
  · intro d hd
    have := hl d hd
    rw [he d hd, List.length_append, List.length_cons] at this
    unfold maxPath
    omega
  · cases ds with
    | nil => simp
    | cons d ds =>
      intro e
      exact hn (by simp at e; simp [e])

/-- A name that begins with a slash is looked for as it is; the buffer overflows with a name of 4096
characters or more, and only then. -/
theorem C97_direct (ok : Name → Bool) (path : Option Name) (file : Name)
    (h : path = none ∨ file.head? = some '/') :
    (getPath ok path file = .overflow ↔ 4096 ≤ file.length)
    ∧ (file.length < 4096 → getPath ok path file = if ok file then .found file else .notFound) := by
  have hg : getPath ok path file = getPath.direct ok file := by
    rcases h with rfl | h
    · rfl
    · cases path with
      | none => rfl
      | some p => unfold getPath; simp only [if_pos h]
  rw [hg]
  unfold getPath.direct maxPath
  by_cases hl : 4096 ≤ file.length
  · rw [if_pos hl]
    exact ⟨⟨fun _ => hl, fun _ => rfl⟩, fun h => absurd hl (by omega)⟩
  · rw [if_neg hl]
    refine ⟨⟨?_, fun h => absurd h hl⟩, fun _ => rfl⟩
    split_ifs <;> intro h <;> cases h

example : IsSplit ':' c!"/usr/lib:lib" [c!"/usr/lib", c!"lib"]
    ∧ getPath (fun n => n == c!"lib/x.h") (some c!"/usr/lib:lib") c!"x.h" = .found c!"lib/x.h"
    ∧ getPath (fun n => n == c!"x.h" || n == c!"/x.h") (some c!":lib:") c!"x.h" = .found c!"/x.h" := by
  have hg : ∀ ok p f, f.head? ≠ some '/' → getPath ok (some p) f = pathLoop ok f p := by
    intro ok p f hf
    unfold getPath; simp only [if_neg hf]
  refine ⟨PathEx.split_iff.2 (by decide +kernel), ?_, ?_⟩
  · rw [hg _ _ _ (by decide +kernel), PathEx.pathLoop_eq]; decide +kernel
  · rw [hg _ _ _ (by decide +kernel), PathEx.pathLoop_eq]; decide +kernel

example : getPath (fun _ => true) none (List.replicate 4096 'a') = .overflow :=
  (C97_direct _ none _ (Or.inl rfl)).1.2 (by rw [List.length_replicate])

/-! ### C98 -/

theorem PathEx.last_unique {f d d' l l' : Name} (h : IsLast f d l) (h' : IsLast f d' l') :
    d = d' ∧ l = l' := by
  obtain ⟨h1, h2, h3⟩ := h
  obtain ⟨h1', h2', h3'⟩ := h'
  have key : ∀ (d d' l l' : Name), d ++ l = d' ++ l' → '/' ∉ l →
      (d' = [] ∨ d'.getLast? = some '/') → d'.length ≤ d.length := by
    intro d d' l l' he hl hd
    by_contra hlt
    rw [not_le] at hlt
    rcases hd with rfl | hd
    · simp at hlt
    · rcases List.append_eq_append_iff.1 he with ⟨a, ha, hb⟩ | ⟨a, ha, -⟩
      · cases hq : a.getLast? with
        | none =>
          rw [List.getLast?_eq_none_iff] at hq
          subst hq
          simp [ha] at hlt
        | some c =>
          rw [ha, List.getLast?_append, hq] at hd
          simp at hd
          subst hd
          exact hl (by rw [hb]; simp [List.mem_of_getLast? hq])
      · rw [ha, List.length_append] at hlt
        omega
  have e : d ++ l = d' ++ l' := by rw [← h1, ← h1']
  have hlen : d.length = d'.length :=
    le_antisymm (key _ _ _ _ e.symm h2' h3) (key _ _ _ _ e h2 h3')
  exact List.append_inj e hlen

theorem PathEx.removePath_last (f : Name) : ∃ d, IsLast f d (removePath f) := by
  refine ⟨(f.reverse.dropWhile (· ≠ '/')).reverse, ?_, ?_, ?_⟩
  · unfold removePath
    rw [← List.reverse_append, List.takeWhile_append_dropWhile, List.reverse_reverse]
  · unfold removePath
    intro h
    rw [List.mem_reverse] at h
    have := List.all_takeWhile (p := fun c : Char => decide (c ≠ '/')) (l := f.reverse)
    rw [List.all_eq_true] at this
    simpa using this _ h
  · cases h : f.reverse.dropWhile (· ≠ '/') with
    | nil => exact Or.inl rfl
    | cons c t =>
      refine Or.inr ?_
      have h1 := List.head_dropWhile_not (fun c : Char => decide (c ≠ '/')) (l := f.reverse)
        (by rw [h]; simp)
      simp only [h, List.head_cons, decide_eq_false_iff_not, not_not] at h1
      rw [h1, List.reverse_cons, List.getLast?_concat]

theorem PathEx.removePath_eq {f d l : Name} (h : IsLast f d l) : removePath f = l := by
  obtain ⟨d', h'⟩ := PathEx.removePath_last f
  exact (PathEx.last_unique h' h).2

/-- What `strrchr` finds. -/
theorem PathEx.fromDot_eq {a e : Name} (h : '.' ∉ e) : fromDot (a ++ '.' :: e) = some ('.' :: e) := by
  unfold fromDot
  rw [if_pos (by simp), List.reverse_append, List.reverse_cons, List.append_assoc,
    List.takeWhile_append_of_pos]
  · simp
  · intro c hc
    rw [List.mem_reverse] at hc
    simp only [decide_eq_true_eq]
    rintro rfl
    exact h hc

theorem PathEx.fromDot_none {s : Name} : fromDot s = none ↔ '.' ∉ s := by
  unfold fromDot
  split_ifs with h <;> simp [h]

theorem PathEx.remove_eq {a e : Name} (h : '.' ∉ e) : removeAnyExtension (a ++ '.' :: e) = a := by
  unfold removeAnyExtension
  rw [PathEx.fromDot_eq h]
  simp

theorem PathEx.remove_none {s : Name} (h : '.' ∉ s) : removeAnyExtension s = s := by
  unfold removeAnyExtension
  rw [PathEx.fromDot_none.2 h]

/-- The last full stop. -/
theorem PathEx.dot {s : Name} (h : '.' ∈ s) : ∃ a e, s = a ++ '.' :: e ∧ '.' ∉ e := by
  induction s with
  | nil => cases h
  | cons c s ih =>
    by_cases hs : '.' ∈ s
    · obtain ⟨a, e, rfl, he⟩ := ih hs
      exact ⟨c :: a, e, rfl, he⟩
    · rcases List.mem_cons.1 h with rfl | h
      · exact ⟨[], s, rfl, hs⟩
      · exact absurd h hs

theorem PathEx.ext_dot {l stem ext : Name} (h : IsExt l stem ext) (hd : '.' ∈ l) :
    ∃ e, ext = '.' :: e ∧ '.' ∉ e ∧ l = stem ++ '.' :: e := by
  obtain ⟨h1, ⟨h2, -⟩ | ⟨e, rfl, he⟩⟩ := h
  · exact absurd hd h2
  · exact ⟨e, rfl, he, h1⟩

theorem PathEx.ext_none {l stem ext : Name} (h : IsExt l stem ext) (hd : '.' ∉ l) :
    ext = [] ∧ stem = l := by
  obtain ⟨h1, ⟨-, rfl⟩ | ⟨e, rfl, he⟩⟩ := h
  · simp at h1; exact ⟨rfl, h1.symm⟩
  · exact absurd (by rw [h1]; simp) hd

/-- The extension and the base name are those of the last part of the name. -/
def C98_full : Prop :=
  ∀ (f d l stem ext : Name), IsLast f d l → IsExt l stem ext →
    (getExtension f).getD [] = ext ∧ removeAnyExtension f = d ++ stem ∧ baseName f = stem
    ∧ rootName f = stem

/-- The extension of `../foo` is `./foo`. -/
theorem C98_full_is_false : ¬C98_full := by
  intro h
  have h1 := (h c!"../foo" c!"../" c!"foo" c!"foo" [] ⟨by decide +kernel, by decide +kernel,
    Or.inr (by decide +kernel)⟩ ⟨by decide +kernel, Or.inl ⟨by decide +kernel, rfl⟩⟩).1
  exact absurd h1 (by decide +kernel)

/-- What happens exactly: all three are wrong when the last part has no full stop and a directory
has one, and right otherwise. -/
theorem C98_exactly {f d l stem ext : Name} (hl : IsLast f d l) (he : IsExt l stem ext) :
    ((getExtension f).getD [] = ext ↔ ('.' ∈ l ∨ '.' ∉ d))
    ∧ (removeAnyExtension f = d ++ stem ↔ ('.' ∈ l ∨ '.' ∉ d)) := by
  by_cases h : '.' ∈ l
  · obtain ⟨e, rfl, h2, rfl⟩ := PathEx.ext_dot he h
    have hf : f = (d ++ stem) ++ '.' :: e := by rw [hl.1, List.append_assoc]
    simp only [h, true_or, iff_true]
    rw [hf]
    exact ⟨by rw [getExtension, PathEx.fromDot_eq h2]; rfl, PathEx.remove_eq h2⟩
  · obtain ⟨rfl, rfl⟩ := PathEx.ext_none he h
    simp only [h, false_or]
    by_cases hd : '.' ∈ d
    · obtain ⟨a, e, rfl, h2⟩ := PathEx.dot hd
      have h3 : '.' ∉ e ++ stem := by simp [h2, h]
      have hf : f = a ++ '.' :: (e ++ stem) := by rw [hl.1]; simp
      simp only [hd, not_true_eq_false, iff_false]
      rw [hf]
      refine ⟨by rw [getExtension, PathEx.fromDot_eq h3]; simp, ?_⟩
      rw [PathEx.remove_eq h3]
      intro e'
      have := congrArg List.length e'
      simp at this
    · have hf : '.' ∉ f := by rw [hl.1]; simp [hd, h]
      simp only [hd, not_false_eq_true, iff_true]
      rw [getExtension, PathEx.fromDot_none.2 hf, PathEx.remove_none hf]
      exact ⟨rfl, hl.1⟩

/-- The name of the root is right always. -/
theorem C98_root {f d l stem ext : Name} (hl : IsLast f d l) (he : IsExt l stem ext) :
    rootName f = stem := by
  unfold rootName
  rw [PathEx.removePath_eq hl]
  by_cases h : '.' ∈ l
  · obtain ⟨e, rfl, h2, rfl⟩ := PathEx.ext_dot he h
    exact PathEx.remove_eq h2
  · obtain ⟨rfl, rfl⟩ := PathEx.ext_none he h
    exact PathEx.remove_none h

/-- The names are right when the last part has a full stop or the directory has none.  Missing: the
other names (`C98_exactly`). -/
theorem C98_partial {f d l stem ext : Name} (hl : IsLast f d l) (he : IsExt l stem ext)
    (h : '.' ∈ l ∨ '.' ∉ d) :
    (getExtension f).getD [] = ext ∧ removeAnyExtension f = d ++ stem ∧ baseName f = stem
    ∧ rootName f = stem := by
  obtain ⟨h1, h2⟩ := C98_exactly hl he
  refine ⟨h1.2 h, h2.2 h, ?_, C98_root hl he⟩
  unfold baseName
  rw [h2.2 h]
  refine PathEx.removePath_eq (d := d) ⟨rfl, ?_, hl.2.2⟩
  intro hm
  exact hl.2.1 (by rw [he.1]; simp [hm])

/-- Otherwise the base name is a part of the name of a directory: what the last full stop is in, up to
it. -/
theorem C98_base_wrong {f d l : Name} (hl : IsLast f d l) (h : '.' ∉ l) (hd : '.' ∈ d) :
    ∃ d1 w v d2, d = d1 ++ w ++ '.' :: v ++ '/' :: d2 ∧ '/' ∉ w ∧ '/' ∉ v ∧ '.' ∉ v ++ d2
      ∧ (d1 = [] ∨ d1.getLast? = some '/') ∧ baseName f = w := by
  obtain ⟨a, e, rfl, h2⟩ := PathEx.dot hd
  obtain ⟨d1, hw⟩ := PathEx.removePath_last a
  have hs : '/' ∈ e := by
    rcases hl.2.2 with h3 | h3
    · simp at h3
    · have h4 := List.mem_of_getLast? h3
      cases he : e.getLast? with
      | none =>
        rw [List.getLast?_eq_none_iff] at he
        subst he
        simp at h3
      | some c =>
        rw [List.getLast?_append, List.getLast?_cons, he] at h3
        simp at h3
        subst h3
        exact List.mem_of_getLast? he
  refine ⟨d1, removePath a, e.takeWhile (· ≠ '/'), (e.dropWhile (· ≠ '/')).tail, ?_, hw.2.1, ?_, ?_,
    hw.2.2, ?_⟩
  · have h5 : '/' :: (e.dropWhile (· ≠ '/')).tail = e.dropWhile (· ≠ '/') := by
      cases h6 : e.dropWhile (· ≠ '/') with
      | nil =>
        have h7 := List.takeWhile_append_dropWhile (p := fun c : Char => decide (c ≠ '/')) (l := e)
        rw [h6, List.append_nil] at h7
        have h8 := List.all_takeWhile (p := fun c : Char => decide (c ≠ '/')) (l := e)
        rw [h7, List.all_eq_true] at h8
        simpa using h8 _ hs
      | cons c t =>
        have h1 := List.head_dropWhile_not (fun c : Char => decide (c ≠ '/')) (l := e)
          (by rw [h6]; simp)
        simp only [h6, List.head_cons, decide_eq_false_iff_not, not_not] at h1
        rw [h1]; rfl
    rw [h5, ← hw.1, List.append_assoc, List.cons_append, List.takeWhile_append_dropWhile]
  · intro hm
    have := List.all_takeWhile (p := fun c : Char => decide (c ≠ '/')) (l := e)
    rw [List.all_eq_true] at this
    simpa using this _ hm
  · intro hm
    rcases List.mem_append.1 hm with hm | hm
    · exact h2 ((List.takeWhile_sublist _).mem hm)
    · exact h2 ((List.dropWhile_sublist _).mem (List.mem_of_mem_tail hm))
  · have hf : f = a ++ '.' :: (e ++ l) := by rw [hl.1]; simp
    unfold baseName
    rw [hf, PathEx.remove_eq (by simp [h2, h])]

example : IsLast c!"src/main.c" c!"src/" c!"main.c" ∧ IsExt c!"main.c" c!"main" c!".c"
    ∧ baseName c!"src/main.c" = c!"main" ∧ baseName c!"/a.b/foo" = c!"a"
    ∧ rootName c!"/a.b/foo" = c!"foo" :=
  ⟨⟨by decide +kernel, by decide +kernel, Or.inr (by decide +kernel)⟩,
   ⟨by decide +kernel, Or.inr ⟨c!"c", by decide +kernel, by decide +kernel⟩⟩, by decide +kernel,
   by decide +kernel, by decide +kernel⟩

/-- An extension is taken away exactly from the names that end with it. -/
theorem C98_without {s t e : Name} (he : '.' ∉ e) :
    withoutExtension s ('.' :: e) = t ↔ s = t ++ '.' :: e ∨ (t = s ∧ ¬('.' :: e) <:+ s) := by
  have h1 : ∀ a : Name, withoutExtension (a ++ '.' :: e) ('.' :: e) = a := by
    intro a
    unfold withoutExtension
    rw [PathEx.fromDot_eq he]
    simp
  by_cases hs : ('.' :: e) <:+ s
  · obtain ⟨a, rfl⟩ := hs
    rw [h1]
    simp [eq_comm]
  · have h2 : withoutExtension s ('.' :: e) = s := by
      by_cases hd : '.' ∈ s
      · obtain ⟨a, e', rfl, he'⟩ := PathEx.dot hd
        unfold withoutExtension
        rw [PathEx.fromDot_eq he']
        simp only
        rw [if_neg]
        intro h
        rw [h] at hs
        exact hs (List.suffix_append _ _)
      · unfold withoutExtension
        rw [PathEx.fromDot_none.2 hd]
    rw [h2]
    simp only [hs, not_false_eq_true, and_true]
    constructor
    · intro h; exact Or.inr h.symm
    · rintro (rfl | h)
      · exact absurd (List.suffix_append _ _) hs
      · exact h.symm

/-- An extension is added exactly to the names without a full stop, and taken away again gives the
name. -/
theorem C98_add {s e : Name} (he : '.' ∉ e) :
    ('.' ∉ s → addExtension s ('.' :: e) = s ++ '.' :: e
      ∧ withoutExtension (addExtension s ('.' :: e)) ('.' :: e) = s)
    ∧ ('.' ∈ s → addExtension s ('.' :: e) = s) := by
  constructor
  · intro h
    have h1 : addExtension s ('.' :: e) = s ++ '.' :: e := by
      unfold addExtension
      rw [PathEx.fromDot_none.2 h]
    exact ⟨h1, by rw [h1, C98_without he]; exact Or.inl rfl⟩
  · intro h
    obtain ⟨a, e', rfl, he'⟩ := PathEx.dot h
    unfold addExtension
    rw [PathEx.fromDot_eq he']

example : withoutExtension c!"a.lcl" c!".lcl" = c!"a" ∧ withoutExtension c!"a.lclx" c!".lcl" = c!"a.lclx"
    ∧ addExtension c!"a" c!".lcl" = c!"a.lcl" := by decide +kernel

/-- What becomes of a file is decided by the extension of the last part of its name. -/
def C98_use_full : Prop :=
  ∀ (f d l stem ext : Name), IsLast f d l → IsExt l stem ext →
    (ext = [] → dispatch f = [.c (f ++ c!".c"), .lcl (f ++ c!".lcl")])
    ∧ (ext ∈ [c!".c", c!".C", c!".h", c!".lh", c!".H", c!".y", c!".l"] → dispatch f = [.c f])
    ∧ (ext = c!".xh" → dispatch f = [.xh f]) ∧ (ext = c!".lcl" → dispatch f = [.lcl f])
    ∧ (ext = c!".mts" → dispatch f = [.mts f]) ∧ (ext = c!".pp" → dispatch f = [.ppMessage, .c f])

/-- For `../foo` neither `../foo.c` nor `../foo.lcl` is read: the extension is not recognised. -/
theorem C98_use_full_is_false : ¬C98_use_full := by
  intro h
  have h1 := (h c!"../foo" c!"../" c!"foo" c!"foo" [] ⟨by decide +kernel, by decide +kernel,
    Or.inr (by decide +kernel)⟩ ⟨by decide +kernel, Or.inl ⟨by decide +kernel, rfl⟩⟩).1 rfl
  exact absurd h1 (by decide +kernel)

/-- A file with an extension is used by it, and one without if no directory of the name has a full stop;
otherwise the extension is unrecognised.  Missing: the last case (`C98_use_full_is_false`). -/
theorem C98_use_partial {f d l stem ext : Name} (hl : IsLast f d l) (he : IsExt l stem ext) :
    (ext = [] → '.' ∉ d → dispatch f = [.c (f ++ c!".c"), .lcl (f ++ c!".lcl")])
    ∧ (ext = [] → '.' ∈ d → dispatch f = [.unrecognized, .c f])
    ∧ (ext ∈ [c!".c", c!".C", c!".h", c!".lh", c!".H", c!".y", c!".l"] → dispatch f = [.c f])
    ∧ (ext = c!".xh" → dispatch f = [.xh f]) ∧ (ext = c!".lcl" → dispatch f = [.lcl f])
    ∧ (ext = c!".mts" → dispatch f = [.mts f]) ∧ (ext = c!".pp" → dispatch f = [.ppMessage, .c f])
    ∧ (ext ≠ [] → ext ∉ [c!".c", c!".C", c!".h", c!".lh", c!".H", c!".y", c!".l", c!".xh", c!".lcl",
        c!".mts", c!".pp"] → dispatch f = [.unrecognized, .c f]) := by
  have hd : ext ≠ [] → getExtension f = some ext := by
    intro hne
    rcases he.2 with ⟨-, h⟩ | ⟨e, rfl, h2⟩
    · exact absurd h hne
    · rw [hl.1, he.1, ← List.append_assoc]
      exact PathEx.fromDot_eq h2
  refine ⟨?_, ?_, ?_, ?_, ?_, ?_, ?_, ?_⟩
  · rintro rfl h
    have h1 : '.' ∉ l := by
      rcases he.2 with ⟨h, -⟩ | ⟨e, h, -⟩
      · exact h
      · cases h
    unfold dispatch
    rw [getExtension, PathEx.fromDot_none.2 (by rw [hl.1]; simp [h, h1])]
  · rintro rfl h
    have h1 : '.' ∉ l := by
      rcases he.2 with ⟨h, -⟩ | ⟨e, h, -⟩
      · exact h
      · cases h
    obtain ⟨a, e, rfl, h2⟩ := PathEx.dot h
    have hs : '/' ∈ e := by
      rcases hl.2.2 with h3 | h3
      · simp at h3
      · cases he : e.getLast? with
        | none =>
          rw [List.getLast?_eq_none_iff] at he
          subst he
          simp at h3
        | some c =>
          rw [List.getLast?_append, List.getLast?_cons, he] at h3
          simp at h3
          subst h3
          exact List.mem_of_getLast? he
    have h3 : getExtension f = some ('.' :: (e ++ l)) := by
      rw [hl.1, List.append_assoc, List.cons_append]
      exact PathEx.fromDot_eq (by simp [h2, h1])
    have h4 : ∀ x : Name, '/' ∉ x → ('.' :: (e ++ l)) ≠ x := by
      rintro x hx rfl
      exact hx (by simp [hs])
    unfold dispatch
    rw [h3]
    simp only
    rw [if_neg (h4 _ (by decide +kernel)), if_neg (h4 _ (by decide +kernel)),
      if_neg (h4 _ (by decide +kernel)), if_neg, if_neg (h4 _ (by decide +kernel))]
    unfold isCExtension
    intro h5
    have h6 : ∀ x ∈ [c!".c", c!".C", c!".h", c!".lh", c!".xh", c!".H", c!".y", c!".l"], '/' ∉ x := by
      decide +kernel
    exact h6 _ (of_decide_eq_true h5) (by simp [hs])
  · intro h
    have hne : ext ≠ [] := by rintro rfl; exact absurd h (by decide +kernel)
    unfold dispatch
    rw [hd hne]
    revert h
    simp only [List.mem_cons, List.not_mem_nil, or_false]
    rintro (rfl | rfl | rfl | rfl | rfl | rfl | rfl) <;> rfl
  · rintro rfl; unfold dispatch; rw [hd (by simp)]; rfl
  · rintro rfl; unfold dispatch; rw [hd (by simp)]; rfl
  · rintro rfl; unfold dispatch; rw [hd (by simp)]; rfl
  · rintro rfl; unfold dispatch; rw [hd (by simp)]; rfl
  · intro hne h
    unfold dispatch
    rw [hd hne]
    simp only [List.mem_cons, List.not_mem_nil, or_false, not_or] at h
    obtain ⟨h1, h2, h3, h4, h5, h6, h7, h8, h9, h10, h11⟩ := h
    simp only
    rw [if_neg h8, if_neg h11, if_neg h9, if_neg, if_neg h10]
    unfold isCExtension
    simp [h1, h2, h3, h4, h5, h6, h7, h8]

end Splint
