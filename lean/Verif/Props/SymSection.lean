import Verif.Proofs.SymSection
/-!
C109: The table of symbols in a library is read back entry by entry.
-/
namespace Splint.SymSection
open Reader Lib LibEntry LibEntry.Spec Spec

variable {F : Floats}

/-- What the section looks like in the file: comments, the table, and a comment behind it. -/
def section_ (c : Codec (Sym F)) (ls : List (List Char)) (t : List (Item (Sym F))) (cl rest : List Char) : List Char :=
  comments ls ++ (dump c t ++ ';' :: (cl ++ '\n' :: rest))

/-- Lines without newlines that are not overly long. -/
def Lines (ls : List (List Char)) : Prop := ∀ l ∈ ls, '\n' ∉ l ∧ l.length < 16000

/-- The tables that are written: not empty, all entries valid, each fits on a line. -/
structure ValidTable (env : Env) (t : List (Item (Sym F))) : Prop where
  some : t ≠ []
  count : t.length < 2 ^ 31
  valid : ∀ e, .ent e ∈ t → ValidSym env e ∧ Spec.Fits e

/-- What one would expect: the table is read back. -/
def C109_full : Prop :=
  ∀ (F : Floats) (env : Env) (T : Int → Int → Bool) (rst : Sym F → Sym F → Bool) (t : List (Item (Sym F)))
    (ls : List (List Char)) (cl rest : List Char),
    (∀ x r, F.read (F.text x ++ '@' :: r) = (x, '@' :: r)) → env.sets ≤ 2 ^ 31 → ValidTable env t →
    Lines (cl :: ls) →
    load (Sym.codec env T rst) (section_ (Sym.codec env T rst) ls t cl rest) = some (t, rest)

/-- What holds of every table: it is read to its end and no further; nothing is lost or added; item `n` is
read as what its text says, or as an entry before it that the program considers equivalent, under its own
name. In particular no number of an entry is ever found to be wrong (usymtab.c:1974-1982). -/
theorem C109_partial (hF : ∀ x r, F.read (F.text x ++ '@' :: r) = (x, '@' :: r)) (env : Env)
    (hs : env.sets ≤ 2 ^ 31) (T : Int → Int → Bool) (rst : Sym F → Sym F → Bool) (t : List (Item (Sym F)))
    (ls : List (List Char)) (cl rest : List Char) (ht : ValidTable env t) (hl : Lines (cl :: ls)) :
    ∃ l, load (Sym.codec env T rst) (section_ (Sym.codec env T rst) ls t cl rest) = some (l, rest) ∧
      l.length = t.length ∧ ∀ n x, l[n]? = some x → ReadAs (Sym.codec env T rst) asRead t n x :=
  load_section (Sym.codec env T rst) asRead ht.some
    (fun e he => Sym.reads hF hs T rst (ht.valid e he).1 (ht.valid e he).2) ht.count
    (fun l h => hl l (by simp [h])) (hl cl (by simp)).1 (hl cl (by simp)).2

/-- What an item is read back as by itself. -/
def Item.asRead : Item (Sym F) → Item (Sym F)
  | .marker => .marker
  | .ent e => .ent (Spec.asRead e)

/-- Whatever else happens, names, order and markers are right, and so are the kinds, except that members of
enumerations are constants. -/
def Item.label : Item (Sym F) → Option (Int × List Char)
  | .marker => none
  | .ent e => some (if e.kind = 2 then 1 else e.kind, e.name)

theorem label_asRead (e : Sym F) : Item.label (.ent (Spec.asRead e)) = Item.label (.ent e) := by
  cases e with
  | entry e => cases e <;> rfl
  | const b ct r => cases b <;> rfl

theorem label_rename (w : List Char) (a : Sym F) (h : a.name ≠ []) (hv : ∀ e, a = .entry e → e ≠ .elips) :
    Item.label (.ent (a.rename w)) = some (if a.kind = 2 then 1 else a.kind, w) := by
  cases a with
  | entry e =>
    cases e with
    | elips => exact absurd rfl (hv _ rfl)
    | tag t => cases t <;> rfl
    | _ => rfl
  | const b ct r => cases b <;> rfl

theorem C109_names_partial (hF : ∀ x r, F.read (F.text x ++ '@' :: r) = (x, '@' :: r)) (env : Env)
    (hs : env.sets ≤ 2 ^ 31) (T : Int → Int → Bool) (rst : Sym F → Sym F → Bool) (t : List (Item (Sym F)))
    (ls : List (List Char)) (cl rest : List Char) (ht : ValidTable env t) (hl : Lines (cl :: ls)) :
    ∃ l, load (Sym.codec env T rst) (section_ (Sym.codec env T rst) ls t cl rest) = some (l, rest) ∧
      l.map Item.label = t.map Item.label := by
  obtain ⟨l, h1, h2, h3⟩ := C109_partial hF env hs T rst t ls cl rest ht hl
  refine ⟨l, h1, List.ext_getElem? fun n => ?_⟩
  rw [List.getElem?_map, List.getElem?_map]
  cases hx : l[n]? with
  | none =>
    rw [List.getElem?_eq_none_iff] at hx
    rw [List.getElem?_eq_none (by omega)]
  | some x =>
    have := h3 n x hx
    cases x with
    | marker => rw [show t[n]? = _ from this]
    | ent x =>
      obtain ⟨e, e1, e2⟩ := this
      rw [e1]
      simp only [Option.map_some, Option.some.injEq]
      rcases e2 with rfl | ⟨j, a, -, e3, e4, -, rfl⟩
      · exact label_asRead e
      · have hv := (ht.valid a (List.mem_of_getElem? e3)).1
        have hb := label_asRead a
        change Item.label (.ent (Sym.rename (Sym.name e) (Spec.asRead a))) = _
        change Sym.kind a = Sym.kind e at e4
        have hr : Sym.rename (Sym.name e) (Spec.asRead a) = Spec.asRead (Sym.rename (Sym.name e) a) := by
          cases a with
          | entry a => cases a <;> rfl
          | const => rfl
        rw [hr, label_asRead, label_rename]
        · simp only [Item.label, e4]
        · cases a with
          | entry a => exact hv.2.2
          | const b ct r => exact hv.2.1.2.2.2.2.1
        · rintro y rfl
          exact hv.2.1

/-- If entries that the program considers equivalent differ in nothing but their names, every entry is read
as what its text says. -/
theorem C109_exact_partial (hF : ∀ x r, F.read (F.text x ++ '@' :: r) = (x, '@' :: r)) (env : Env)
    (hs : env.sets ≤ 2 ^ 31) (T : Int → Int → Bool) (rst : Sym F → Sym F → Bool) (t : List (Item (Sym F)))
    (ls : List (List Char)) (cl rest : List Char) (ht : ValidTable env t) (hl : Lines (cl :: ls))
    (hu : ∀ a e, .ent a ∈ t → .ent e ∈ t → Sym.equiv T rst a e = true → a.rename e.name = e) :
    load (Sym.codec env T rst) (section_ (Sym.codec env T rst) ls t cl rest) = some (t.map Item.asRead, rest) := by
  obtain ⟨l, h1, h2, h3⟩ := C109_partial hF env hs T rst t ls cl rest ht hl
  rw [h1]
  congr 2
  refine List.ext_getElem? fun n => ?_
  rw [List.getElem?_map]
  cases hx : l[n]? with
  | none =>
    rw [List.getElem?_eq_none_iff] at hx
    rw [List.getElem?_eq_none (by omega)]
    rfl
  | some x =>
    have := h3 n x hx
    cases x with
    | marker => rw [show t[n]? = _ from this]; rfl
    | ent x =>
      obtain ⟨e, e1, e2⟩ := this
      rw [e1]
      simp only [Option.map_some, Option.some.injEq, Item.asRead, Item.ent.injEq]
      rcases e2 with rfl | ⟨j, a, -, e3, e4, e5, rfl⟩
      · rfl
      · have := hu a e (List.mem_of_getElem? e3) (List.mem_of_getElem? e1) e5
        change Sym.rename (Sym.name e) (Spec.asRead a) = _
        have hr : Sym.rename (Sym.name e) (Spec.asRead a) = Spec.asRead (Sym.rename (Sym.name e) a) := by
          cases a with
          | entry a => cases a <;> rfl
          | const => rfl
        rw [hr, this]

/-- What is not compared (uentry.c:4185-4258, sRef.c:1566-1634): the sets of types a constant gives access
to, the exposure of variables and data types. -/
def Extra : Sym F → Int
  | .const _ _ r => r.access
  | .entry (.var _ _ _ _ _ ex _ _) => ex
  | .entry (.datatype _ _ _ _ _ _ ex _ _) => ex
  | _ => 0

/-- Everything else is: equivalent entries with the same types and no strings or numbers that are equal but
not the same (0.0 and -0.0) differ at most in that and in their names. -/
theorem C109_equivalent_differ (T : Int → Int → Bool) (rst : Sym F → Sym F → Bool) (a e : Sym F)
    (hT : ∀ x y, T x y = true → x = y) (hd : ∀ x y : F.D, F.lt x y = false → F.lt y x = false → x = y)
    (hr : ∀ b ct r, e = .const b ct r → Readable r.val)
    (h : Sym.equiv T rst a e = true) : a.rename e.name = e ↔ Extra a = Extra e := by
  cases a with
  | const b ct r =>
    cases e with
    | entry e => simp [Sym.equiv] at h
    | const b' ct' r' =>
      obtain ⟨v, ac, ns, w⟩ := r
      obtain ⟨v', ac', ns', w'⟩ := r'
      have hr := hr _ _ _ rfl
      simp only [Sym.equiv, Bool.and_eq_true, decide_eq_true_eq] at h
      obtain ⟨⟨⟨⟨h1, h2⟩, h3⟩, h4⟩, -⟩ := h
      have hv : v = v' := by
        cases v <;> cases v' <;> simp [MultiVal.compare, MultiVal.kind, genericCompare, Readable] at h4 hr ⊢
        · omega
        · omega
        · rename_i x y _
          cases h5 : F.lt y x <;> cases h6 : F.lt x y <;> simp [h5, h6] at h4
          exact hd _ _ h6 h5
      simp only [Sym.rename, Sym.name, Sym.const.injEq, ConstRec.mk.injEq, Extra, hT _ _ h2, h1, h3, hv, true_and,
        and_true]
      omega
  | entry a =>
    cases e with
    | const b ct r => cases a <;> simp [Sym.equiv] at h
    | entry e =>
      cases a <;> cases e <;> simp only [Sym.equiv, Bool.and_eq_true, decide_eq_true_eq, Bool.false_eq_true] at h
      · obtain ⟨⟨⟨⟨⟨⟨h1, h2⟩, h3⟩, h4⟩, h5⟩, h6⟩, -⟩ := h
        simp [Sym.rename, Sym.name, Extra, hT _ _ h1, h2, h3, h4, h5, h6]
      · obtain ⟨⟨⟨⟨⟨⟨⟨h1, h2⟩, h3⟩, h4⟩, h5⟩, h6⟩, h7⟩, -⟩ := h
        have hm : ∀ m m' : Ynm, Ynm.compare m m' = 0 → m = m' := by
          intro m m'; cases m <;> cases m' <;> decide
        simp [Sym.rename, Sym.name, Extra, hT _ _ h1, h2, h3, h4, hT _ _ h5, hm _ _ h6, h7]
      · obtain ⟨⟨h1, h2⟩, -⟩ := h
        simp [Sym.rename, Sym.name, Extra, hT _ _ h1, h2]
      · obtain ⟨⟨h1, h2⟩, -⟩ := h
        simp [Sym.rename, Sym.name, Extra, hT _ _ h1, h2]
      · obtain ⟨⟨⟨h1, h2⟩, h3⟩, -⟩ := h
        simp [Sym.rename, Sym.name, Extra, hT _ _ h2, h1, hT _ _ h3]

/-- Where this goes wrong: an entry behind an equivalent one of the same kind loses everything but its name. -/
theorem C109_second_is_first (hF : ∀ x r, F.read (F.text x ++ '@' :: r) = (x, '@' :: r)) (env : Env)
    (hs : env.sets ≤ 2 ^ 31) (T : Int → Int → Bool) (rst : Sym F → Sym F → Bool) (a e : Sym F)
    (cl rest : List Char) (ha : ValidSym env a) (he : ValidSym env e) (fa : a.dump.length ≤ 14000)
    (na : '\n' ∉ a.dump) (wa : a.name.length ≤ 2092) (fe : Spec.Fits e) (hl : Lines [cl])
    (hk : e.kind = a.kind) (hq : Sym.equiv T rst a e = true) :
    load (Sym.codec env T rst) (section_ (Sym.codec env T rst) [] [.ent a, .ent e] cl rest) =
      some ([.ent (asRead a), .ent ((asRead a).rename e.name)], rest) :=
  pair_text (Sym.codec env T rst) (Sym.reads hF hs T rst ha ⟨na, by omega, wa⟩) (Sym.reads hF hs T rst he fe) hk hq fa
    (hl cl (by simp)).1 (hl cl (by simp)).2

/-- A member of an enumeration is never one again. -/
theorem C109_members_become_constants (hF : ∀ x r, F.read (F.text x ++ '@' :: r) = (x, '@' :: r)) (env : Env)
    (hs : env.sets ≤ 2 ^ 31) (T : Int → Int → Bool) (rst : Sym F → Sym F → Bool) (t : List (Item (Sym F)))
    (ls : List (List Char)) (cl rest : List Char) (ht : ValidTable env t) (hl : Lines (cl :: ls)) :
    ∃ l, load (Sym.codec env T rst) (section_ (Sym.codec env T rst) ls t cl rest) = some (l, rest) ∧
      ∀ e, .ent e ∈ l → e.kind ≠ 2 := by
  obtain ⟨l, h1, h2, h3⟩ := C109_partial hF env hs T rst t ls cl rest ht hl
  refine ⟨l, h1, ?_⟩
  intro x hx
  obtain ⟨n, hn⟩ := List.mem_iff_getElem?.1 hx
  obtain ⟨e, -, e2⟩ := h3 n _ hn
  have key : ∀ (a : Sym F) (w : List Char), (asRead a).kind ≠ 2 ∧ ((asRead a).rename w).kind ≠ 2 := by
    intro a w
    cases a with
    | const b ct r => exact ⟨by simp [asRead, Sym.kind], by simp [asRead, Sym.kind, Sym.rename]⟩
    | entry e =>
      cases e with
      | tag t => cases t <;> exact ⟨by simp [asRead, asTempIf, Sym.kind], by simp [asRead, asTempIf, Sym.kind, Sym.rename]⟩
      | _ => exact ⟨by simp [asRead, asTempIf, Sym.kind], by simp [asRead, asTempIf, Sym.kind, Sym.rename]⟩
  rcases e2 with rfl | ⟨j, a, -, -, -, -, rfl⟩
  · exact (key e []).1
  · exact (key a _).2

/-- An entry that does not fit on a line is written all the same, and the library cannot be loaded. -/
theorem C109_long_entry_unreadable (env : Env) (T : Int → Int → Bool) (rst : Sym F → Sym F → Bool) (e : Sym F)
    (rest : List Char) (hn : '\n' ∉ e.dump) (hl : 16382 ≤ e.dump.length) :
    load (Sym.codec env T rst) (dump (Sym.codec env T rst) [.ent e] ++ rest) = none := by
  refine long_text (Sym.codec env T rst) ?_ hn hl rest
  change 0 ≤ Sym.kind e ∧ Sym.kind e ≤ 10
  cases e with
  | const b ct r => cases b <;> exact ⟨by simp [Sym.kind], by simp [Sym.kind]⟩
  | entry e =>
    cases e with
    | tag t => cases t <;> exact ⟨by simp [Sym.kind], by simp [Sym.kind]⟩
    | _ => exact ⟨by simp [Sym.kind], by simp [Sym.kind]⟩

def sampleSetEnv : Env := { eqv := fun _ _ => true, sets := 10, known := fun _ => false }

/-- Two constants of the same value, declared in different modules: the first gives access to the types of
set 1, the second to those of set 2. -/
def sampleA : Sym toyNat := .const false 3 ⟨.long 7, 1, 0, c!"lo"⟩
def sampleB : Sym toyNat := .const false 3 ⟨.long 7, 2, 0, c!"hi"⟩
def sampleC : Sym toyNat := .entry (.var 3 0 3 4 0 0 0 c!"x")

theorem samples_valid : ValidTable sampleSetEnv [.ent sampleA, .ent sampleB, .marker, .ent sampleC] := by
  refine ⟨by simp, by simp, ?_⟩
  intro e he
  simp only [List.mem_cons, Item.ent.injEq, List.not_mem_nil, or_false, reduceCtorEq, false_or] at he
  rcases he with rfl | rfl | rfl
  · exact ⟨⟨⟨by decide, by decide⟩, ⟨by simp [MultiVal.wf], by decide, by decide, by decide, by decide, by decide⟩,
      by decide, by decide, .inl (by decide)⟩, by decide +kernel, by decide +kernel, by decide⟩
  · exact ⟨⟨⟨by decide, by decide⟩, ⟨by simp [MultiVal.wf], by decide, by decide, by decide, by decide, by decide⟩,
      by decide, by decide, .inl (by decide)⟩, by decide +kernel, by decide +kernel, by decide⟩
  · refine ⟨⟨⟨⟨by decide, by decide⟩, by decide, ⟨by decide, by decide⟩, ⟨by decide, by decide⟩,
      ⟨by decide, by decide⟩, ⟨by decide, by decide⟩, by decide, ?_⟩, by decide, by decide⟩, by decide +kernel,
      by decide +kernel, by decide⟩
    intro c hc
    revert c
    decide

def sampleT (a b : Int) : Bool := a = b

example : dump (Sym.codec sampleSetEnv sampleT fun _ _ => true)
    [.ent sampleA, .ent sampleB, .marker, .ent sampleC] =
    c!"*1 (Constant)\n^0 3@i7@1@0#lo#hi\n*11 (GlobalMarker)\n*3 (Variable)\n^3 3|@0|3@4@0&#x\n" := by
  decide +kernel

theorem toyNat_reads : ∀ (x : toyNat.D) r, toyNat.read (toyNat.text x ++ '@' :: r) = (x, '@' :: r) :=
  fun _ _ => rfl

theorem C109_full_is_false : ¬ C109_full := by
  intro h
  have hv : ValidTable sampleSetEnv [.ent sampleA, .ent sampleB] :=
    ⟨by simp, by simp, fun e he => samples_valid.valid e (by
      simp only [List.mem_cons, List.not_mem_nil, or_false] at he
      rcases he with he | he <;> simp [he])⟩
  have hl : Lines [c!";End"] := by
    intro l hl
    simp only [List.mem_cons, List.not_mem_nil, or_false] at hl
    subst hl
    exact ⟨by decide, by decide⟩
  have va := hv.valid sampleA (by simp)
  have vb := hv.valid sampleB (by simp)
  have h1 := h toyNat sampleSetEnv sampleT (fun _ _ => true) _ [] c!";End" [] toyNat_reads (by decide) hv hl
  rw [C109_second_is_first toyNat_reads sampleSetEnv (by decide) sampleT (fun _ _ => true) sampleA sampleB c!";End" []
    va.1 vb.1 (by decide +kernel) va.2.1 va.2.2.2 vb.2 hl rfl (by decide +kernel)] at h1
  simp [asRead, Sym.rename, Sym.name, sampleA, sampleB] at h1

end Splint.SymSection
