import Verif.Proofs.ConstraintDump
import Verif.Props.LibRef
/-! C16, second part: bounds constraints in a library. -/
namespace Splint
open Lib Lib.Spec Reader Bounds

/-- C16 for expressions in full: every expression over C identifiers (letters, digits and
underscores) and `long` numbers reads back with the same sense. -/
def C16_expr_full : Prop :=
  ∀ (eqv : Ref → Ref → Bool) (t : LTerm),
    (∃ w, t = .named w ∧ w ≠ [] ∧ w.length < 100 ∧ ∀ c ∈ w, c.isAlphanum ∨ c = '_')
      ∨ (∃ n, t = .lit n ∧ -2 ^ 63 ≤ n ∧ n < 2 ^ 63) →
    ∀ f, ∃ e', LExpr.undump eqv ((LExpr.term t).dump ++ f) = some (e', f) ∧
      sense e' = .term (thing t)

/-- A variable called `Result` is read as the result of the function. -/
theorem C16_expr_full_is_false : ¬ C16_expr_full := by
  intro h
  obtain ⟨e', h1, h2⟩ := h (fun _ _ => false) (.named wResult)
    (.inl ⟨_, rfl, by decide, by decide, by decide +kernel⟩) []
  have e : LExpr.undump (fun _ _ => false) ((LExpr.term (.named wResult)).dump ++ [])
      = some (.term (.result 0), []) := by decide +kernel
  rw [e] at h1
  cases h1
  exact absurd h2 (by decide)

/-- Nor do all numbers read back: `-12` is read as `-8`, and what is too big for an `int` is not read
at all. -/
theorem C16_numbers :
    LExpr.undump (fun _ _ => false) (LExpr.term (.lit (-12))).dump = some (.term (.lit (-8)), [])
    ∧ LExpr.undump (fun _ _ => false) (LExpr.term (.lit 2147483648)).dump = none := by
  decide +kernel

/-- A bounds expression reads back with the same sense, consuming exactly its lines, if its numbers
can be read (C15), its names are words other than `Result`, `Param` and `sRef_dump` and shorter than a
line, and its references can be read (C55). Missing for the full claim: other numbers and those
names. -/
theorem C16_expr_partial {eqv : Ref → Ref → Bool} {e : LExpr} (h : GoodExpr eqv e) (f : List Char) :
    ∃ e', LExpr.undump eqv (e.dump ++ f) = some (e', f) ∧ sense e' = sense e :=
  ⟨_, expr_undump h f, sense_reread e⟩

/-- `maxSet(p->next[3].x) - n + 1` -/
def exBounds : LExpr :=
  .bin .plus (.bin .minus (.un .maxSet (.term (.ref exRef))) (.term (.named ['n']))) (.term (.lit 1))

theorem exBounds_good (eqv : Ref → Ref → Bool) : GoodExpr eqv exBounds :=
  .bin (.bin (.un (.term (.ref (exRef_good eqv) (by decide +kernel))))
    (.term (.named ⟨by decide, by decide, by decide⟩ (by decide))))
    (.term (.lit ⟨by decide, by decide, .inl (by decide)⟩))

example : String.ofList exBounds.dump =
    "0\n1\ne1\n0\n2\ne1\n1\n1\n2\n2\nsRef_dump fx.a3fnext.tp0\ne2\n2\n2\nn\ne2\n2\n3\n1\n" := by
  decide +kernel

/-- C16 for constraints in full. -/
def C16_constraint_full : Prop :=
  ∀ (eqv : Ref → Ref → Bool) (c : LCon), GoodExpr eqv c.l → GoodExpr eqv c.r →
    (∀ a ∈ c.alt, GoodExpr eqv a.2.1 ∧ GoodExpr eqv a.2.2) →
    ∀ f, ∃ c', LCon.undump eqv (c.dump ++ f) = some (c', f) ∧ content c' = content c

/-- `n ≥ 1 or n ≤ 1` reads back as `n ≥ 1`. -/
theorem C16_constraint_full_is_false : ¬ C16_constraint_full := by
  intro h
  have g1 : GoodExpr (fun _ _ => false) (.term (.named ['n'])) :=
    .term (.named ⟨by decide, by decide, by decide⟩ (by decide))
  have g2 : GoodExpr (fun _ _ => false) (.term (.lit 1)) :=
    .term (.lit ⟨by decide, by decide, .inl (by decide)⟩)
  obtain ⟨c', h1, h2⟩ := h (fun _ _ => false)
    ⟨true, false, .gte, .term (.named ['n']), .term (.lit 1),
      [(.lte, .term (.named ['n']), .term (.lit 1))]⟩ g1 g2
    (by simp only [List.mem_singleton, forall_eq]; exact ⟨g1, g2⟩) []
  have e : LCon.undump (fun _ _ => false)
      ((⟨true, false, .gte, .term (.named ['n']), .term (.lit 1),
        [(.lte, .term (.named ['n']), .term (.lit 1))]⟩ : LCon).dump ++ [])
      = some (⟨true, false, .gte, .term (.named ['n']), .term (.lit 1), []⟩, []) := by
    decide +kernel
  rw [e] at h1
  cases h1
  exact absurd h2 (by decide)

/-- A constraint without alternatives reads back. Missing for the full claim: alternatives, which are
not written. -/
theorem C16_constraint_partial {eqv : Ref → Ref → Bool} {c : LCon} (h : GoodCon eqv c)
    (f : List Char) :
    ∃ c', LCon.undump eqv (c.dump ++ f) = some (c', f) ∧ content c' = content c :=
  ⟨_, con_undump h f, content_reread h.1⟩

/-- `exBounds ≥ 0` -/
def exCon : LCon := ⟨true, false, .gte, exBounds, .term (.lit 0), []⟩

theorem exCon_good (eqv : Ref → Ref → Bool) : GoodCon eqv exCon :=
  ⟨rfl, exBounds_good eqv, .term (.lit ⟨by decide, by decide, .inl (by decide)⟩)⟩

/-- A list of constraints reads back up to the line that ends it, as the constraints with the same
content, without those that those before them resolve. -/
theorem C16_list_partial {eqv : Ref → Ref → Bool} (res : LCon → List LCon → Bool) {l : List LCon}
    (hl : ∀ c ∈ l, GoodCon eqv c) {e : List Char} (he : '\n' ∉ e) (he' : e.length < 16382)
    (f : List Char) :
    ∃ l', undumpCons eqv res (dumpCons l ++ (';' :: e ++ '\n' :: f)) = some (l', f)
      ∧ Reread res l l' :=
  ⟨_, cons_undump he he' f hl, reread_list hl⟩

/-- If none is resolved by those before it, all of them are there. -/
theorem C16_list_all {l l' : List LCon} (h : Reread (fun _ _ => false) l l') :
    l'.map content = l.map content := by
  obtain ⟨k, h1, rfl⟩ := h
  rw [← h1]
  have : ∀ (k a : List LCon),
      k.foldl (fun done c => if (false : Bool) then done else done ++ [c]) a = a ++ k := by
    intro k
    induction k with
    | nil => simp
    | cons c k ih => intro a; rw [List.foldl_cons, ih]; simp
  rw [this]
  rfl

example : (∀ c ∈ [exCon, exCon], GoodCon (fun _ _ => false) c) := by
  intro c hc
  simp only [List.mem_cons, List.not_mem_nil, or_false, or_self] at hc
  exact hc ▸ exCon_good _

/-- The constraints of all functions of a library read back: for each function that has some, its
name with its preconditions and postconditions. -/
theorem C16_functions_partial {eqv : Ref → Ref → Bool} (res : LCon → List LCon → Bool)
    {known : List Char → Bool} {us : List FcnCons}
    (hn : ∀ u ∈ us, Name u.name ∧ u.name.head? ≠ some ';' ∧ known u.name = true)
    (hp : ∀ u ∈ us, ∀ l, u.pre = some l ∨ u.post = some l → ∀ c ∈ l, GoodCon eqv c)
    {e : List Char} (he : '\n' ∉ e) (he' : e.length < 16382) (f : List Char) :
    ∃ us', undumpFcns eqv res known (dumpFcns us ++ (';' :: e ++ '\n' :: f)) = some (us', f) ∧
      RereadFcns res (us.filter fun u => u.pre.isSome || u.post.isSome) us' :=
  fcns_undump he he' f us hn hp

/-- Three functions, one of them without constraints. -/
def exFcns : List FcnCons :=
  [⟨['f'], some [exCon], none⟩, ⟨['g'], none, none⟩, ⟨['h'], some [], some [exCon, exCon]⟩]

example : (∀ u ∈ exFcns, Name u.name ∧ u.name.head? ≠ some ';' ∧ (fun _ => true) u.name = true)
    ∧ ∀ u ∈ exFcns, ∀ l, u.pre = some l ∨ u.post = some l → ∀ c ∈ l, GoodCon (fun _ _ => false) c := by
  constructor
  · intro u hu
    simp only [exFcns, List.mem_cons, List.not_mem_nil, or_false] at hu
    rcases hu with rfl | rfl | rfl <;>
      exact ⟨⟨by simp, by simp, by simp⟩, by simp, rfl⟩
  · intro u hu l hl c hc
    simp only [exFcns, List.mem_cons, List.not_mem_nil, or_false] at hu
    rcases hu with rfl | rfl | rfl <;> rcases hl with hl | hl <;> cases hl <;>
      simp only [List.mem_cons, List.not_mem_nil, or_false, or_self] at hc <;> subst hc <;>
      exact exCon_good _

end Splint
