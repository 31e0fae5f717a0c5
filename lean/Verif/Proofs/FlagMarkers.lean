import Verif.Spec.FlagMarkers
import Verif.Tactics
import Mathlib.Data.List.Nodup
/-!
# The marker list represents the comments read
-/
namespace Splint.FlagMarkers

/-! ## Positions -/

/-- The test of `flagMarkerList_lastBeforeLoc`. -/
def okAt (m : Marker) (loc : FileLoc) : Bool := m.loc.sameFile loc && !(m.beforeMarker loc)

theorem okAt_loc (k : MKind) (p q : Pos) :
    okAt ⟨k, p.loc⟩ q.loc = true ↔ p.file = q.file ∧ p.le q := by
  simp only [okAt, Marker.beforeMarker, Pos.loc, FileLoc.sameFile, FileLoc.sameBase, FileLoc.isLib, FileLoc.notAfter,
    Pos.le]
  by_cases h : p.file = q.file <;> simp [h]

theorem le_total (p q : Pos) : p.le q ∨ q.le p := by unfold Pos.le; omega
theorem le_trans {p q r : Pos} (h1 : p.le q) (h2 : q.le r) : p.le r := by unfold Pos.le at *; omega
theorem le_refl (p : Pos) : p.le p := by unfold Pos.le; omega

theorem almostSame {env : FileEnv} (he : Plain env) (p q : Pos) :
    env.almostSameFile p.loc q.loc = decide (p.file = q.file) := by
  simp [FileEnv.almostSameFile, Pos.loc, FileLoc.isLib, FileLoc.sameBase, he.1, he.2]

theorem lastBefore_some (A B : List Marker) (m : Marker) (loc : FileLoc) (hm : okAt m loc = true)
    (hB : ∀ b ∈ B, okAt b loc = false) : lastBefore1 (A ++ m :: B) loc = A.length + 1 := by
  have key : ∀ n, n ≤ B.length →
      lastBeforeLoop (A ++ m :: B) loc (A.length + 1 + n) = A.length + 1 := by
    intro n
    induction n with
    | zero =>
      intro _
      simp only [Nat.add_zero, lastBeforeLoop, List.getElem?_append_right (Nat.le_refl _),
        Nat.sub_self, List.getElem?_cons_zero]
      unfold okAt at hm
      rw [if_pos hm]
    | succ n ih =>
      intro hn
      have hlt : n < B.length := by omega
      have hg : (A ++ m :: B)[A.length + 1 + n]? = some B[n] := by
        rw [List.getElem?_append_right (by omega)]
        rw [show A.length + 1 + n - A.length = n + 1 by omega, List.getElem?_cons_succ,
          List.getElem?_eq_getElem hlt]
      rw [← Nat.add_assoc]
      simp only [lastBeforeLoop, hg]
      have := hB B[n] (List.getElem_mem hlt)
      unfold okAt at this
      rw [if_neg (by rw [this]; simp)]
      exact ih (by omega)
  have := key B.length (Nat.le_refl _)
  unfold lastBefore1
  rw [← this]
  congr 1
  simp; omega

theorem lastBefore_none (s : List Marker) (loc : FileLoc) (hs : ∀ b ∈ s, okAt b loc = false) :
    lastBefore1 s loc = 0 := by
  have key : ∀ n, n ≤ s.length → lastBeforeLoop s loc n = 0 := by
    intro n
    induction n with
    | zero => intro _; rfl
    | succ n ih =>
      intro hn
      have hlt : n < s.length := by omega
      simp only [lastBeforeLoop, List.getElem?_eq_getElem hlt]
      have := hs s[n] (List.getElem_mem hlt)
      unfold okAt at this
      rw [if_neg (by rw [this]; simp)]
      exact ih (by omega)
  exact key _ (Nat.le_refl _)

theorem add_mid (A B : List Marker) (m fm : Marker) (hc : contains (A ++ m :: B) fm = false)
    (hr : refused (A ++ m :: B) fm = false) (hm : okAt m fm.loc = true)
    (hB : ∀ b ∈ B, okAt b fm.loc = false) :
    add (A ++ m :: B) fm = (A ++ m :: fm :: B, true) := by
  unfold add
  simp only [hc, hr, lastBefore_some A B m _ hm hB, Bool.false_eq_true, if_false]
  rw [if_neg (by omega)]
  have e : A ++ m :: B = (A ++ [m]) ++ B := by simp
  have l : A.length + 1 = (A ++ [m]).length := by simp
  rw [e, l, List.take_left, List.drop_left]
  simp

theorem add_end (s : List Marker) (fm : Marker) (hc : contains s fm = false)
    (hr : refused s fm = false) (hs : ∀ b ∈ s, okAt b fm.loc = false) :
    add s fm = (s ++ [fm], true) := by
  unfold add
  simp [hc, hr, lastBefore_none s _ hs]

/-! ## The backward scans -/

/-- The loop of `flagMarkerList_suppressError` over the markers met. -/
def supRev (env : FileEnv) (nc code : Int) (loc : FileLoc) (isName : Bool) :
    List Marker → ScanSt → Ynm × Option Nat
  | [], st => (st.flagSet, none)
  | cur :: rest, st =>
    if !(cur.sameFile env loc) then (st.flagSet, none)
    else match cur.kind with
      | .ignoreOff => supRev env nc code loc isName rest { st with ignoreOff := true }
      | .ignoreOn => if !st.ignoreOff then (.yes, none) else supRev env nc code loc isName rest st
      | .ignoreCount _ =>
        if !st.ignoreOff then (.yes, some rest.length) else supRev env nc code loc isName rest st
      | .localSet c set =>
        match localSetStep nc code isName c set st with
        | .inl r => (r, none)
        | .inr st' => supRev env nc code loc isName rest st'
      | .suppress _ => supRev env nc code loc isName rest st

theorem supLoop_eq (env : FileEnv) (nc code : Int) (loc : FileLoc) (isName : Bool)
    (s : List Marker) (i : Nat) (hi : i ≤ s.length) (st : ScanSt) :
    supLoop env nc s code loc false isName i st =
      match supRev env nc code loc isName (s.take i).reverse st with
      | (y, none) => some (y, s)
      | (y, some j) => (splice s j ⟨.suppress code, loc⟩).map fun s' => (y, s') := by
  induction i generalizing st with
  | zero => simp [supLoop, supRev]
  | succ i ih =>
    have hlt : i < s.length := by omega
    have ht : (s.take (i + 1)).reverse = s[i] :: (s.take i).reverse := by
      rw [List.take_succ_eq_append_getElem hlt]; simp
    rw [ht]
    simp only [supLoop, List.getElem?_eq_getElem hlt, supRev, Bool.not_false, Bool.true_and]
    have hlen : (s.take i).reverse.length = i := by simp; omega
    by_cases hf : (s[i].sameFile env loc) = true
    · simp only [hf, Bool.not_true, Bool.false_eq_true, if_false]
      cases hk : s[i].kind with
      | ignoreOff => exact ih (by omega) _
      | ignoreOn =>
        by_cases ho : st.ignoreOff = true
        · simp only [ho, Bool.not_true, Bool.false_eq_true, if_false]
          exact ih (by omega) _
        · simp [ho]
      | ignoreCount n =>
        by_cases ho : st.ignoreOff = true
        · simp only [ho, Bool.not_true, Bool.false_eq_true, if_false]
          exact ih (by omega) _
        · simp only [ho, Bool.not_false, if_true, hlen]
      | localSet c v =>
        cases hls : localSetStep nc code isName c v st with
        | inl r => simp only [hls]
        | inr st' => simp only [hls]; exact ih (by omega) _
      | suppress c => exact ih (by omega) _
    · simp [hf]

/-- The scan stops at another file. -/
theorem supRev_append (env : FileEnv) (nc code : Int) (loc : FileLoc) (isName : Bool)
    (R X : List Marker) (hX : ∀ m ∈ X, m.sameFile env loc = false) (st : ScanSt) :
    supRev env nc code loc isName (R ++ X) st =
      ((supRev env nc code loc isName R st).1,
       (supRev env nc code loc isName R st).2.map (· + X.length)) := by
  induction R generalizing st with
  | nil =>
    cases X with
    | nil => simp [supRev]
    | cons m X => simp [supRev, hX m (by simp)]
  | cons m R ih =>
    simp only [List.cons_append, supRev]
    split
    · rfl
    · split
      · exact ih _
      · split
        · rfl
        · exact ih _
      · split
        · simp
        · exact ih _
      · split
        · rfl
        · exact ih _
      · exact ih _

/-- The loop of `flagMarkerList_inIgnore` over the markers met. -/
def ignRev (env : FileEnv) (loc : FileLoc) : List Marker → Bool × Option Nat
  | [] => (false, none)
  | cur :: rest =>
    if !(cur.sameFile env loc) then (false, none)
    else match cur.kind with
      | .ignoreOff => (false, none)
      | .ignoreOn => (true, none)
      | .ignoreCount _ => (true, some rest.length)
      | .localSet .. => ignRev env loc rest
      | .suppress _ => ignRev env loc rest

theorem ignLoop_eq (env : FileEnv) (loc : FileLoc) (s : List Marker) (i : Nat)
    (hi : i ≤ s.length) :
    ignLoop env s loc i =
      match ignRev env loc (s.take i).reverse with
      | (y, none) => some (y, s)
      | (y, some j) => (splice s j ⟨.suppress skipFlag, loc⟩).map fun s' => (y, s') := by
  induction i with
  | zero => simp [ignLoop, ignRev]
  | succ i ih =>
    have hlt : i < s.length := by omega
    have ht : (s.take (i + 1)).reverse = s[i] :: (s.take i).reverse := by
      rw [List.take_succ_eq_append_getElem hlt]; simp
    rw [ht]
    simp only [ignLoop, List.getElem?_eq_getElem hlt, ignRev]
    have hlen : (s.take i).reverse.length = i := by simp; omega
    by_cases hf : (s[i].sameFile env loc) = true
    · simp only [hf, Bool.not_true, Bool.false_eq_true, if_false]
      cases hk : s[i].kind with
      | ignoreOff => rfl
      | ignoreOn => rfl
      | ignoreCount n => simp only [hlen]
      | localSet c v => exact ih (by omega)
      | suppress c => exact ih (by omega)
    · simp [hf]

theorem ignRev_append (env : FileEnv) (loc : FileLoc) (R X : List Marker)
    (hX : ∀ m ∈ X, m.sameFile env loc = false) :
    ignRev env loc (R ++ X) =
      ((ignRev env loc R).1, (ignRev env loc R).2.map (· + X.length)) := by
  induction R with
  | nil =>
    cases X with
    | nil => simp [ignRev]
    | cons m X => simp [ignRev, hX m (by simp)]
  | cons m R ih =>
    simp only [List.cons_append, ignRev]
    split
    · rfl
    · split
      · rfl
      · rfl
      · simp
      · exact ih
      · exact ih

/-! ## Items: a comment together with the suppressions recorded under it -/

/-- A comment as the list holds it. -/
structure Item where
  c : Comment
  p : Pos
  qs : List (Int × Pos)

/-- The comment and its count. -/
def Item.toRec (x : Item) : Rec := ⟨x.c, x.p, x.qs.length⟩

/-- Where a counted line ends. -/
def Pos.lineEnd (p : Pos) : Pos := ⟨p.file, p.line + 1, 0⟩

/-- The markers of a comment up to the end of a counted line. -/
def supMarks (qs : List (Int × Pos)) : List Marker := qs.map (fun q => ⟨.suppress q.1, q.2.loc⟩)

/-- The marker of a comment. -/
def Comment.mark (c : Comment) (p : Pos) : Marker :=
  match c with
  | .ignore => ⟨.ignoreOn, p.loc⟩
  | .end_ => ⟨.ignoreOff, p.loc⟩
  | .set code v => ⟨.localSet code v, p.loc⟩
  | .count n => ⟨.ignoreCount n, p.loc⟩

/-- The markers of an item. -/
def Item.render (x : Item) : List Marker :=
  x.c.mark x.p :: (if x.c.isCount then supMarks x.qs ++ [⟨.ignoreOff, x.p.lineEnd.loc⟩] else [])

/-- The markers of several items. -/
def render (B : List Item) : List Marker := B.flatMap Item.render

/-- Conditions on one item of file `f`. -/
structure ItemOk (f : Int) (x : Item) : Prop where
  file : x.p.file = f
  col : 1 ≤ x.p.col
  qs : ∀ q ∈ x.qs, q.2.file = f ∧ q.2.line = x.p.line ∧ x.p.col ≤ q.2.col
  nqs : x.c.isCount = false → x.qs = []

/-- Conditions on the items of file `f`: in the order of the text, nothing after a count on its
line. -/
structure BlockOk (f : Int) (B : List Item) : Prop where
  items : ∀ x ∈ B, ItemOk f x
  sorted : B.Pairwise (fun a b => a.p.le b.p ∧ (a.c.isCount = true → a.p.line < b.p.line))

@[simp] theorem mark_loc (c : Comment) (p : Pos) : (c.mark p).loc = p.loc := by
  cases c <;> rfl

theorem render_cons (x : Item) (B : List Item) : render (x :: B) = x.render ++ render B := rfl
theorem render_append (A B : List Item) : render (A ++ B) = render A ++ render B := by
  simp [render]

/-- Every marker of an item is at or after the item, in its file. -/
theorem render_pos {f : Int} {x : Item} (hx : ItemOk f x) (m : Marker) (hm : m ∈ x.render) :
    ∃ p : Pos, m.loc = p.loc ∧ p.file = f ∧ x.p.le p := by
  simp only [Item.render, List.mem_cons] at hm
  rcases hm with rfl | hm
  · exact ⟨x.p, by simp, hx.file, le_refl _⟩
  · split at hm
    · rcases List.mem_append.1 hm with hm | hm
      · obtain ⟨q, hq, rfl⟩ := List.mem_map.1 hm
        obtain ⟨h1, h2, h3⟩ := hx.qs q hq
        exact ⟨q.2, rfl, h1, by unfold Pos.le; omega⟩
      · rw [List.mem_singleton] at hm
        subst hm
        exact ⟨x.p.lineEnd, rfl, hx.file, by unfold Pos.le Pos.lineEnd; simp⟩
    · simp at hm

theorem okAt_loc' {m : Marker} {p q : Pos} (h : m.loc = p.loc) :
    okAt m q.loc = true ↔ p.file = q.file ∧ p.le q := by
  rw [← okAt_loc m.kind, ← h]

theorem okAt_false {m : Marker} {p q : Pos} (h : m.loc = p.loc)
    (hn : ¬ (p.file = q.file ∧ p.le q)) : okAt m q.loc = false := by
  rw [← Bool.not_eq_true, okAt_loc' h]; exact hn

/-- Items after `q` have no marker at or before `q`. -/
theorem after_notOk {f : Int} {B : List Item} (hB : ∀ x ∈ B, ItemOk f x) (q : Pos)
    (h : ∀ x ∈ B, ¬ x.p.le q) : ∀ m ∈ render B, okAt m q.loc = false := by
  intro m hm
  obtain ⟨x, hx, hmx⟩ := List.mem_flatMap.1 hm
  obtain ⟨p, h1, -, h3⟩ := render_pos (hB x hx) m hmx
  refine okAt_false h1 (fun hh => h x hx (le_trans h3 hh.2))

/-- Items of another file have no marker at or before `q`. -/
theorem other_notOk {f : Int} {B : List Item} (hB : ∀ x ∈ B, ItemOk f x) (q : Pos)
    (h : f ≠ q.file) : ∀ m ∈ render B, okAt m q.loc = false := by
  intro m hm
  obtain ⟨x, hx, hmx⟩ := List.mem_flatMap.1 hm
  obtain ⟨p, h1, h2, -⟩ := render_pos (hB x hx) m hmx
  exact okAt_false h1 (fun hh => h (by rw [← h2, hh.1]))

theorem other_notSame {env : FileEnv} (he : Plain env) {f : Int} {B : List Item}
    (hB : ∀ x ∈ B, ItemOk f x) (q : Pos) (h : f ≠ q.file) :
    ∀ m ∈ render B, m.sameFile env q.loc = false := by
  intro m hm
  obtain ⟨x, hx, hmx⟩ := List.mem_flatMap.1 hm
  obtain ⟨p, h1, h2, -⟩ := render_pos (hB x hx) m hmx
  simp only [Marker.sameFile, h1, almostSame he, decide_eq_false_iff_not]
  exact fun hh => h (by rw [← h2, hh])

theorem in_same {env : FileEnv} (he : Plain env) {f : Int} {B : List Item}
    (hB : ∀ x ∈ B, ItemOk f x) (q : Pos) (h : f = q.file) :
    ∀ m ∈ render B, m.sameFile env q.loc = true := by
  intro m hm
  obtain ⟨x, hx, hmx⟩ := List.mem_flatMap.1 hm
  obtain ⟨p, h1, h2, -⟩ := render_pos (hB x hx) m hmx
  simp [Marker.sameFile, h1, almostSame he, h2, h]

/-- The last marker of an item: the item itself, or the end of the counted line. -/
theorem render_last (x : Item) : ∃ A m, x.render = A ++ [m] ∧
    m.loc = (if x.c.isCount then x.p.lineEnd else x.p).loc ∧ m.isIgnoreCount = false := by
  by_cases h : x.c.isCount = true
  · refine ⟨x.c.mark x.p :: supMarks x.qs, ⟨.ignoreOff, x.p.lineEnd.loc⟩, ?_, ?_, rfl⟩
    · simp [Item.render, h]
    · simp [h]
  · refine ⟨[], x.c.mark x.p, ?_, ?_, ?_⟩
    · simp [Item.render, h]
    · simp [h]
    · cases hc : x.c <;> simp_all [Comment.mark, Marker.isIgnoreCount, Comment.isCount]

/-- Splitting the items of a file at a place. -/
theorem split_at {f : Int} {B : List Item} (hB : BlockOk f B) (q : Pos) :
    ∃ B1 B2, B = B1 ++ B2 ∧ (∀ x ∈ B1, x.p.le q) ∧ (∀ x ∈ B2, ¬ x.p.le q) := by
  obtain ⟨hi, hs⟩ := hB
  clear hi
  induction B with
  | nil => exact ⟨[], [], rfl, by simp, by simp⟩
  | cons x B ih =>
    rw [List.pairwise_cons] at hs
    by_cases h : x.p.le q
    · obtain ⟨B1, B2, h1, h2, h3⟩ := ih hs.2
      exact ⟨x :: B1, B2, by simp [h1], by simpa [h] using h2, h3⟩
    · refine ⟨[], x :: B, rfl, by simp, ?_⟩
      intro y hy
      rcases List.mem_cons.1 hy with rfl | hy
      · exact h
      · exact fun hh => h (le_trans (hs.1 y hy).1 hh)

theorem BlockOk.left {f : Int} {B1 B2 : List Item} (h : BlockOk f (B1 ++ B2)) : BlockOk f B1 :=
  ⟨fun x hx => h.items x (by simp [hx]), (List.pairwise_append.1 h.sorted).1⟩
theorem BlockOk.right {f : Int} {B1 B2 : List Item} (h : BlockOk f (B1 ++ B2)) : BlockOk f B2 :=
  ⟨fun x hx => h.items x (by simp [hx]), (List.pairwise_append.1 h.sorted).2.1⟩

/-! ## Scanning items -/

/-- The scan of whole items, last one first. -/
def ansRev (nc code : Int) (isName : Bool) : List Item → ScanSt → Ynm
  | [], st => st.flagSet
  | x :: r, st =>
    match x.c with
    | .ignore => if !st.ignoreOff then .yes else ansRev nc code isName r st
    | .end_ => ansRev nc code isName r { st with ignoreOff := true }
    | .count _ => ansRev nc code isName r { st with ignoreOff := true }
    | .set c v =>
      match localSetStep nc code isName c v st with
      | .inl y => y
      | .inr st' => ansRev nc code isName r st'

theorem supRev_skip (env : FileEnv) (nc code : Int) (q : Pos) (isName : Bool)
    (qs : List (Int × Pos)) (R : List Marker) (st : ScanSt)
    (hs : ∀ m ∈ supMarks qs, m.sameFile env q.loc = true) :
    supRev env nc code q.loc isName ((supMarks qs).reverse ++ R) st =
      supRev env nc code q.loc isName R st := by
  have : ∀ L : List Marker, (∀ m ∈ L, m.sameFile env q.loc = true ∧ ∃ c, m.kind = .suppress c) →
      supRev env nc code q.loc isName (L ++ R) st = supRev env nc code q.loc isName R st := by
    intro L
    induction L with
    | nil => intro _; rfl
    | cons m L ih =>
      intro h
      obtain ⟨h1, c, h2⟩ := h m (by simp)
      simp only [List.cons_append, supRev, h1, h2, Bool.not_true, Bool.false_eq_true, if_false]
      exact ih (fun m hm => h m (by simp [hm]))
  apply this
  intro m hm
  rw [List.mem_reverse] at hm
  refine ⟨hs m hm, ?_⟩
  obtain ⟨x, -, rfl⟩ := List.mem_map.1 hm
  exact ⟨_, rfl⟩

theorem supRev_items {env : FileEnv} (he : Plain env) (nc code : Int) (q : Pos) (isName : Bool)
    {B : List Item} (hB : ∀ x ∈ B, ItemOk q.file x) (st : ScanSt) :
    supRev env nc code q.loc isName (render B).reverse st = (ansRev nc code isName B.reverse st, none) := by
  have key : ∀ r : List Item, (∀ x ∈ r, ItemOk q.file x) → ∀ st,
      supRev env nc code q.loc isName (r.flatMap (fun x => x.render.reverse)) st =
        (ansRev nc code isName r st, none) := by
    intro r
    induction r with
    | nil => intro _ st; rfl
    | cons x r ih =>
      intro hr st
      have hx := hr x (by simp)
      have ih := ih (fun y hy => hr y (by simp [hy]))
      have hsame := in_same he (B := [x]) (by simpa using hx) q rfl
      simp only [render, List.flatMap_cons, List.flatMap_nil, List.append_nil] at hsame
      have h0 : (x.c.mark x.p).sameFile env q.loc = true :=
        hsame _ (by simp [Item.render])
      rw [List.flatMap_cons]
      cases hc : x.c with
      | ignore =>
        rw [hc] at h0
        simp only [Comment.mark] at h0
        rw [show x.render.reverse = [x.c.mark x.p] by simp [Item.render, hc, Comment.isCount]]
        simp only [hc, List.nil_append, List.cons_append, Comment.mark, supRev, h0,
          Bool.not_true, Bool.false_eq_true, if_false, ansRev, ih]
        split <;> rfl
      | end_ =>
        rw [hc] at h0
        simp only [Comment.mark] at h0
        rw [show x.render.reverse = [x.c.mark x.p] by simp [Item.render, hc, Comment.isCount]]
        simp only [hc, List.nil_append, List.cons_append, Comment.mark, supRev, h0,
          Bool.not_true, Bool.false_eq_true, if_false, ansRev, ih]
      | set c v =>
        rw [hc] at h0
        simp only [Comment.mark] at h0
        rw [show x.render.reverse = [x.c.mark x.p] by simp [Item.render, hc, Comment.isCount]]
        simp only [hc, List.nil_append, List.cons_append, Comment.mark, supRev, h0,
          Bool.not_true, Bool.false_eq_true, if_false, ansRev, ih]
        split <;> rfl
      | count n =>
        have hoff : (⟨.ignoreOff, x.p.lineEnd.loc⟩ : Marker).sameFile env q.loc = true :=
          hsame _ (by simp [Item.render, hc, Comment.isCount])
        have hsup : ∀ m ∈ supMarks x.qs, m.sameFile env q.loc = true := fun m hm =>
          hsame m (by simp [Item.render, hc, Comment.isCount, hm])
        rw [hc] at h0
        simp only [Comment.mark] at h0
        have e : x.render.reverse ++ r.flatMap (fun x => x.render.reverse) =
            ⟨.ignoreOff, x.p.lineEnd.loc⟩ :: ((supMarks x.qs).reverse ++
              (⟨.ignoreCount n, x.p.loc⟩ :: r.flatMap (fun x => x.render.reverse))) := by
          simp [Item.render, hc, Comment.isCount, Comment.mark]
        rw [e]
        simp only [supRev, hoff, Bool.not_true, Bool.false_eq_true, if_false]
        rw [supRev_skip env nc code q isName _ _ _ hsup]
        simp only [supRev, h0, Bool.not_true, Bool.false_eq_true, if_false, ansRev, hc, ih]
  have := key B.reverse (by simpa using hB) st
  rw [← this]
  congr 1
  simp only [render, List.flatMap_def, List.reverse_flatten, ← List.map_reverse, List.map_map]
  rfl

/-- The answer of the scan of `flagMarkerList_inIgnore` over whole items. -/
def regRev : List Item → Bool
  | [] => false
  | x :: r =>
    match x.c with
    | .ignore => true
    | .end_ => false
    | .count _ => false
    | .set _ _ => regRev r

theorem ignRev_items {env : FileEnv} (he : Plain env) (q : Pos)
    {B : List Item} (hB : ∀ x ∈ B, ItemOk q.file x) :
    ignRev env q.loc (render B).reverse = (regRev B.reverse, none) := by
  have key : ∀ r : List Item, (∀ x ∈ r, ItemOk q.file x) →
      ignRev env q.loc (r.flatMap (fun x => x.render.reverse)) = (regRev r, none) := by
    intro r
    induction r with
    | nil => intro _; rfl
    | cons x r ih =>
      intro hr
      have hx := hr x (by simp)
      have ih := ih (fun y hy => hr y (by simp [hy]))
      have hsame := in_same he (B := [x]) (by simpa using hx) q rfl
      simp only [render, List.flatMap_cons, List.flatMap_nil, List.append_nil] at hsame
      have h0 : (x.c.mark x.p).sameFile env q.loc = true :=
        hsame _ (by simp [Item.render])
      rw [List.flatMap_cons]
      cases hc : x.c with
      | count n =>
        have hoff : (⟨.ignoreOff, x.p.lineEnd.loc⟩ : Marker).sameFile env q.loc = true :=
          hsame _ (by simp [Item.render, hc, Comment.isCount])
        have e : x.render.reverse ++ r.flatMap (fun x => x.render.reverse) =
            ⟨.ignoreOff, x.p.lineEnd.loc⟩ :: ((supMarks x.qs).reverse ++
              (⟨.ignoreCount n, x.p.loc⟩ :: r.flatMap (fun x => x.render.reverse))) := by
          simp [Item.render, hc, Comment.isCount, Comment.mark]
        rw [e]
        simp only [ignRev, hoff, Bool.not_true, Bool.false_eq_true, if_false, regRev, hc]
      | _ =>
        rw [hc] at h0
        simp only [Comment.mark] at h0
        rw [show x.render.reverse = [x.c.mark x.p] by simp [Item.render, hc, Comment.isCount]]
        simp only [hc, List.nil_append, List.cons_append, Comment.mark, ignRev, h0,
          Bool.not_true, Bool.false_eq_true, if_false, regRev, ih]
  have := key B.reverse (by simpa using hB)
  rw [← this]
  congr 1
  simp only [render, List.flatMap_def, List.reverse_flatten, ← List.map_reverse, List.map_map]
  rfl

/-! ## The scans and the specification -/

/-- The first setting met. -/
def firstSet (code : Int) : List Item → Option Ynm
  | [] => none
  | x :: r =>
    match x.c with
    | .set c v => if c = code then some v else firstSet code r
    | _ => firstSet code r

/-- The governing setting, last item first. -/
def gov (nc code : Int) : List Item → Option Ynm
  | [] => none
  | x :: r =>
    match x.c with
    | .set c v =>
      if c = code ∨ c = nc then (firstSet (if c = code then nc else code) (x :: r)).or (some v)
      else gov nc code r
    | _ => gov nc code r

theorem regionOpen_eq (r : List Item) : regionOpen (r.reverse.map Item.toRec) = regRev r := by
  induction r with
  | nil => rfl
  | cons x r ih =>
    rw [List.reverse_cons, List.map_append, regionOpen, List.foldl_append]
    rw [regionOpen] at ih
    rw [ih]
    simp only [List.map_cons, List.map_nil, List.foldl_cons, List.foldl_nil, regRev, Item.toRec]
    cases x.c <;> rfl

theorem lastSetting_eq (code : Int) (r : List Item) :
    lastSetting code (r.reverse.map Item.toRec) = firstSet code r := by
  induction r with
  | nil => rfl
  | cons x r ih =>
    rw [List.reverse_cons, List.map_append, lastSetting, settings, List.filterMap_append]
    rw [lastSetting, settings] at ih
    rw [List.getLast?_append, ih]
    simp only [List.map_cons, List.map_nil, List.filterMap_cons, List.filterMap_nil, firstSet,
      Item.toRec]
    cases x.c with
    | set c v => by_cases h : c = code <;> simp [h]
    | _ => simp

theorem olderSetting_eq (nc code : Int) (r : List Item) :
    olderSetting nc code (r.reverse.map Item.toRec) = gov nc code r := by
  have key : ∀ r : List Item,
      ((r.reverse.map Item.toRec).filterMap (fun r => setsEither nc code r.c)).getLast? =
        (r.filterMap (fun r => setsEither nc code r.c)).head? := by
    intro r
    rw [List.filterMap_map, List.filterMap_reverse, List.getLast?_reverse]
    rfl
  induction r with
  | nil => rfl
  | cons x r ih =>
    unfold olderSetting at ih ⊢
    simp only [key, lastSetting_eq] at ih ⊢
    rw [List.filterMap_cons]
    by_cases h : ∃ v, setsEither nc code x.c = some v
    · obtain ⟨⟨c, v⟩, h⟩ := h
      simp only [h, List.head?_cons]
      cases hc : x.c with
      | set c' v' =>
        rw [hc, setsEither] at h
        split at h
        · rename_i hcc
          cases h
          simp [gov, hc, hcc]
        · cases h
      | _ => rw [hc] at h; cases h
    · have h : setsEither nc code x.c = none := by
        cases hh : setsEither nc code x.c with
        | none => rfl
        | some v => exact absurd ⟨v, hh⟩ h
      simp only [h]
      have h1 : gov nc code (x :: r) = gov nc code r := by
        cases hc : x.c with
        | set c' v' =>
          rw [hc, setsEither] at h
          split at h
          · cases h
          · rename_i hcc
            simp [gov, hc, hcc]
        | _ => simp [gov, hc]
      have h2 : ∀ d, (d = code ∨ d = nc) → firstSet d (x :: r) = firstSet d r := by
        intro d hd
        cases hc : x.c with
        | set c' v' =>
          rw [hc, setsEither] at h
          split at h
          · cases h
          · rename_i hcc
            have : c' ≠ d := by rintro rfl; exact hcc hd
            simp [firstSet, hc, this]
        | _ => simp [firstSet, hc]
      rw [h1, ← ih]
      cases (r.filterMap (fun r => setsEither nc code r.c)).head? with
      | none => rfl
      | some w =>
        simp only
        rw [h2 _ (by split <;> simp)]

theorem ansRev_plain (nc code : Int) (r : List Item) (st : ScanSt) :
    ansRev nc code false r st =
      if !st.ignoreOff && regRev r then .yes
      else if st.flagOff then st.flagSet
      else match firstSet code r with
        | none => st.flagSet
        | some v => verdict (some v) := by
  induction r generalizing st with
  | nil => obtain ⟨io, no, fo, fs⟩ := st; cases fo <;> simp [ansRev, regRev, firstSet]
  | cons x r ih =>
    obtain ⟨io, no, fo, fs⟩ := st
    cases hc : x.c with
    | ignore => cases io <;> simp [ansRev, regRev, firstSet, hc, ih]
    | end_ => simp [ansRev, regRev, firstSet, hc, ih]
    | count n => simp [ansRev, regRev, firstSet, hc, ih]
    | set c v =>
      by_cases h : c = code
      · cases v <;> cases io <;> cases fo <;>
          simp [ansRev, regRev, firstSet, hc, ih, localSetStep, h, verdict]
      · cases io <;> cases fo <;>
          simp [ansRev, regRev, firstSet, hc, ih, localSetStep, h]

theorem ansRev_name (nc code : Int) (r : List Item) (st : ScanSt) :
    ansRev nc code true r st =
      if !st.ignoreOff && regRev r then .yes
      else if (st.flagOff = false ∧ firstSet code r = some .no) ∨
          (st.nameChecksOff = false ∧ firstSet nc r = some .no) then .yes
      else match st.flagOff, st.nameChecksOff with
        | true, true => st.flagSet
        | true, false => (match firstSet nc r with | none => st.flagSet | some v => verdict (some v))
        | false, true => (match firstSet code r with | none => st.flagSet | some v => verdict (some v))
        | false, false => (match gov nc code r with | none => st.flagSet | some v => verdict (some v)) := by
  induction r generalizing st with
  | nil =>
    obtain ⟨io, no, fo, fs⟩ := st
    cases fo <;> cases no <;> simp [ansRev, regRev, firstSet, gov]
  | cons x r ih =>
    obtain ⟨io, no, fo, fs⟩ := st
    cases hc : x.c with
    | ignore => cases io <;> simp [ansRev, regRev, firstSet, gov, hc, ih]
    | end_ => simp [ansRev, regRev, firstSet, gov, hc, ih]
    | count n => simp [ansRev, regRev, firstSet, gov, hc, ih]
    | set c v =>
      by_cases h1 : c = code <;> by_cases h2 : c = nc
      · subst h1; subst h2
        cases v <;> cases io <;> cases fo <;> cases no <;>
          simp [ansRev, regRev, firstSet, gov, hc, ih, localSetStep, verdict]
      · subst h1
        cases v <;> cases io <;> cases fo <;> cases no <;>
          simp [ansRev, regRev, firstSet, gov, hc, ih, localSetStep, h2, verdict] <;>
          cases hn : firstSet nc r <;> simp [verdict]
      · subst h2
        cases v <;> cases io <;> cases fo <;> cases no <;>
          simp [ansRev, regRev, firstSet, gov, hc, ih, localSetStep, h1, verdict] <;>
          cases hn : firstSet code r <;> simp [verdict]
      · cases io <;> cases fo <;> cases no <;>
          simp [ansRev, regRev, firstSet, gov, hc, ih, localSetStep, h1, h2]

end Splint.FlagMarkers
