import Verif.Proofs.FlagMarkers
/-!
# The marker list represents the comments read: states and events
-/
namespace Splint.FlagMarkers

/-! ## Order of the text -/

theorem place_map (g : Rec → Rec) (hg : ∀ r, (g r).p = r.p) (x : Rec) (l : List Rec) :
    place (g x) (l.map g) = (place x l).map g := by
  induction l with
  | nil => rfl
  | cons y l ih =>
    simp only [List.map_cons, place, hg, ih]
    split <;> simp

theorem textOrder_map (g : Rec → Rec) (hg : ∀ r, (g r).p = r.p) (l : List Rec) :
    textOrder (l.map g) = (textOrder l).map g := by
  have : ∀ (l a : List Rec), (l.map g).foldl (fun l x => place x l) (a.map g) =
      (l.foldl (fun l x => place x l) a).map g := by
    intro l
    induction l with
    | nil => intro a; rfl
    | cons x l ih =>
      intro a
      simp only [List.map_cons, List.foldl_cons, place_map g hg, ih]
  exact this l []

theorem textOrder_snoc (l : List Rec) (x : Rec) : textOrder (l ++ [x]) = place x (textOrder l) := by
  simp [textOrder]

theorem place_split (x : Rec) (A B : List Rec) (hA : ∀ y ∈ A, y.p.le x.p)
    (hB : ∀ y ∈ B, ¬ y.p.le x.p) : place x (A ++ B) = A ++ x :: B := by
  induction A with
  | nil =>
    cases B with
    | nil => rfl
    | cons y B => simp [place, hB y (by simp)]
  | cons y A ih =>
    simp [place, hA y (by simp), ih (fun z hz => hA z (by simp [hz]))]

/-! ## The invariant -/

/-- The list `s` represents the comments `S`; `bs` are the files and their items. -/
structure Rep (s : List Marker) (S : List Rec) (bs : List (Int × List Item)) : Prop where
  eq : s = bs.flatMap (fun b => render b.2)
  files : (bs.map Prod.fst).Nodup
  blocks : ∀ b ∈ bs, BlockOk b.1 b.2
  nonempty : ∀ b ∈ bs, b.2 ≠ []
  order : ∀ b ∈ bs, textOrder (S.filter (fun r => r.p.file = b.1)) = b.2.map Item.toRec
  perm : S.Perm (bs.flatMap (fun b => b.2.map Item.toRec))

theorem rep_nil : Rep [] [] [] := by constructor <;> simp

variable {s : List Marker} {S : List Rec} {bs : List (Int × List Item)}

theorem Rep.mem_iff (h : Rep s S bs) (r : Rec) :
    r ∈ S ↔ ∃ b ∈ bs, ∃ x ∈ b.2, x.toRec = r := by
  rw [h.perm.mem_iff]
  simp

/-- Every marker of a comment kind comes from an item. -/
theorem mark_in_render {x : Item} {m : Marker} (hm : m ∈ x.render) :
    m = x.c.mark x.p ∨ (∃ c, m.kind = .suppress c) ∨
      (x.c.isCount = true ∧ m = ⟨.ignoreOff, x.p.lineEnd.loc⟩) := by
  simp only [Item.render, List.mem_cons] at hm
  rcases hm with h | hm
  · exact Or.inl h
  · split at hm
    · rename_i hc
      rcases List.mem_append.1 hm with hm | hm
      · obtain ⟨q, -, rfl⟩ := List.mem_map.1 hm
        exact Or.inr (Or.inl ⟨_, rfl⟩)
      · rw [List.mem_singleton] at hm
        exact Or.inr (Or.inr ⟨hc, hm⟩)
    · simp at hm

theorem Rep.marker (h : Rep s S bs) {m : Marker} (hm : m ∈ s) :
    ∃ r ∈ S, 1 ≤ r.p.col ∧ (m = r.c.mark r.p ∨ (∃ c, m.kind = .suppress c) ∨
      (r.c.isCount = true ∧ m = ⟨.ignoreOff, r.p.lineEnd.loc⟩)) := by
  rw [h.eq] at hm
  obtain ⟨b, hb, hm⟩ := List.mem_flatMap.1 hm
  obtain ⟨x, hx, hm⟩ := List.mem_flatMap.1 hm
  exact ⟨x.toRec, (h.mem_iff _).2 ⟨b, hb, x, hx, rfl⟩, ((h.blocks b hb).items x hx).col,
    mark_in_render hm⟩

theorem loc_equal (p q : Pos) : FileLoc.equal p.loc q.loc = true ↔ p = q := by
  simp only [FileLoc.equal, Pos.loc, FileLoc.sameFile, FileLoc.sameBase, FileLoc.isLib]
  obtain ⟨a, b, c⟩ := p
  obtain ⟨a', b', c'⟩ := q
  simp
  tauto

theorem mark_inj {c c' : Comment} {p p' : Pos} :
    ((c.mark p).equal (c'.mark p')) = true ↔ c = c' ∧ p = p' := by
  have := loc_equal p p'
  cases c <;> cases c' <;> simp_all [Comment.mark, Marker.equal]

/-- The list contains the marker of a comment exactly if the comment has been read. -/
theorem Rep.contains_iff (h : Rep s S bs) (c : Comment) (p : Pos) (hp : 1 ≤ p.col) :
    contains s (c.mark p) = true ↔ ∃ r ∈ S, r.c = c ∧ r.p = p := by
  unfold contains
  rw [List.any_eq_true]
  constructor
  · rintro ⟨m, hm, he⟩
    obtain ⟨r, hr, -, rfl | ⟨k, hk⟩ | ⟨-, rfl⟩⟩ := h.marker hm
    · exact ⟨r, hr, mark_inj.1 he⟩
    · cases c <;> simp [Marker.equal, hk, Comment.mark] at he
    · exfalso
      have := loc_equal r.p.lineEnd p
      cases c <;> simp [Marker.equal, Comment.mark] at he
      have := this.1 he
      have : r.p.lineEnd.col = p.col := by rw [this]
      simp only [Pos.lineEnd] at this
      omega
  · rintro ⟨r, hr, rfl, rfl⟩
    obtain ⟨b, hb, x, hx, rfl⟩ := (h.mem_iff r).1 hr
    refine ⟨x.c.mark x.p, ?_, mark_inj.2 ⟨rfl, rfl⟩⟩
    rw [h.eq]
    exact List.mem_flatMap.2 ⟨b, hb, List.mem_flatMap.2 ⟨x, hx, by simp [Item.render]⟩⟩

/-- A place is refused only after a counted comment on its line. -/
theorem refused_false (s : List Marker) (fm : Marker)
    (hlast : ∀ m, s.getLast? = some m → m.isIgnoreCount = true → fm.isIgnoreOff = true)
    (h : ∀ m ∈ s, m.isIgnoreCount = true → fm.loc.sameFileAndLine m.loc = false) :
    refused s fm = false := by
  unfold refused
  split
  · rename_i hl
    have h1 : s.length - 1 < s.length := by omega
    have h2 : s.length - 2 < s.length := by omega
    simp only [List.getElem?_eq_getElem h1, List.getElem?_eq_getElem h2]
    split
    · rename_i hc
      rw [hlast _ (by rw [List.getLast?_eq_getElem?, List.getElem?_eq_getElem h1]) hc]
      rfl
    · cases hn : s[s.length - 2].isIgnoreCount with
      | false => simp
      | true => simp [h _ (List.getElem_mem h2) hn]
  · rfl

theorem count_marker (h : Rep s S bs) {m : Marker} (hm : m ∈ s) (hc : m.isIgnoreCount = true) :
    ∃ r ∈ S, r.c.isCount = true ∧ m.loc = r.p.loc := by
  obtain ⟨r, hr, -, rfl | ⟨k, hk⟩ | ⟨-, rfl⟩⟩ := h.marker hm
  · refine ⟨r, hr, ?_, by simp⟩
    cases hrc : r.c <;> simp_all [Comment.mark, Marker.isIgnoreCount, Comment.isCount]
  · simp [Marker.isIgnoreCount, hk] at hc
  · simp [Marker.isIgnoreCount] at hc

theorem sameLine (p q : Pos) :
    FileLoc.sameFileAndLine p.loc q.loc = true ↔ p.file = q.file ∧ p.line = q.line := by
  simp [FileLoc.sameFileAndLine, FileLoc.sameFile, FileLoc.sameBase, FileLoc.isLib, Pos.loc]

/-- The last marker is never a count. -/
theorem Rep.last (h : Rep s S bs) (m : Marker) (hm : s.getLast? = some m) :
    m.isIgnoreCount = false := by
  rcases bs.eq_nil_or_concat with rfl | ⟨bs', b, hbs⟩
  · rw [h.eq] at hm; simp at hm
  · rw [List.concat_eq_append] at hbs
    have hb : b ∈ bs := by simp [hbs]
    rcases b.2.eq_nil_or_concat with hn | ⟨B, x, hB⟩
    · exact absurd hn (h.nonempty b hb)
    · rw [List.concat_eq_append] at hB
      obtain ⟨A, m', h1, -, h3⟩ := render_last x
      have : s = (bs'.flatMap (fun b => render b.2) ++ render B ++ A) ++ [m'] := by
        rw [h.eq, hbs]
        simp [hB, render_append, render_cons, render, h1]
      rw [this, List.getLast?_append] at hm
      simp at hm
      exact hm ▸ h3

/-- Splitting off the block of a file. -/
theorem Rep.block (h : Rep s S bs) (f : Int) :
    (∀ r ∈ S, r.p.file ≠ f) ∧ (∀ b ∈ bs, b.1 ≠ f) ∨
    ∃ bs1 B bs2, bs = bs1 ++ (f, B) :: bs2 ∧ (∀ b ∈ bs1, b.1 ≠ f) ∧ ∀ b ∈ bs2, b.1 ≠ f := by
  by_cases hf : ∃ b ∈ bs, b.1 = f
  · right
    obtain ⟨⟨f', B⟩, hb, rfl⟩ := hf
    obtain ⟨bs1, bs2, rfl⟩ := List.append_of_mem hb
    have := h.files
    simp only [List.map_append, List.map_cons, List.nodup_append, List.nodup_cons] at this
    refine ⟨bs1, B, bs2, rfl, ?_, ?_⟩
    · intro b hb' he
      exact this.2.2 b.1 (List.mem_map.2 ⟨b, hb', rfl⟩) f' (by simp) he
    · intro b hb' he
      exact this.2.1.1 (List.mem_map.2 ⟨b, hb', he⟩)
  · left
    have hf' : ∀ b ∈ bs, b.1 ≠ f := fun b hb he => hf ⟨b, hb, he⟩
    refine ⟨?_, hf'⟩
    intro r hr he
    obtain ⟨b, hb, x, hx, rfl⟩ := (h.mem_iff r).1 hr
    have := ((h.blocks b hb).items x hx).file
    exact hf' b hb (by rw [← this]; exact he)

theorem others_notOk {bs : List (Int × List Item)} (hb : ∀ b ∈ bs, BlockOk b.1 b.2) (q : Pos)
    (h : ∀ b ∈ bs, b.1 ≠ q.file) :
    ∀ m ∈ bs.flatMap (fun b => render b.2), okAt m q.loc = false := by
  intro m hm
  obtain ⟨b, hb', hm⟩ := List.mem_flatMap.1 hm
  exact other_notOk (hb b hb').items q (h b hb') m hm

theorem others_notSame {env : FileEnv} (he : Plain env) {bs : List (Int × List Item)}
    (hb : ∀ b ∈ bs, BlockOk b.1 b.2) (q : Pos) (h : ∀ b ∈ bs, b.1 ≠ q.file) :
    ∀ m ∈ bs.flatMap (fun b => render b.2), m.sameFile env q.loc = false := by
  intro m hm
  obtain ⟨b, hb', hm⟩ := List.mem_flatMap.1 hm
  exact other_notSame he (hb b hb').items q (h b hb') m hm

/-! ## Changing one block -/

theorem filter_file_snoc (S : List Rec) (x : Rec) (f : Int) :
    (S ++ [x]).filter (fun r => r.p.file = f) =
      if x.p.file = f then S.filter (fun r => r.p.file = f) ++ [x]
      else S.filter (fun r => r.p.file = f) := by
  rw [List.filter_append]
  by_cases h : x.p.file = f <;> simp [h]

/-- A comment in a file that has none yet. -/
theorem Rep.newFile (h : Rep s S bs) (x : Item) (hx : ItemOk x.p.file x)
    (hn : ∀ b ∈ bs, b.1 ≠ x.p.file) (hS : ∀ r ∈ S, r.p.file ≠ x.p.file) :
    Rep (s ++ x.render) (S ++ [x.toRec]) (bs ++ [(x.p.file, [x])]) := by
  refine ⟨?_, ?_, ?_, ?_, ?_, ?_⟩
  · rw [h.eq]; simp [render]
  · rw [List.map_append, List.nodup_append]
    refine ⟨h.files, by simp, ?_⟩
    intro a ha b hb he
    obtain ⟨c, hc, rfl⟩ := List.mem_map.1 ha
    simp only [List.map_cons, List.map_nil, List.mem_singleton] at hb
    exact hn c hc (by rw [he, hb])
  · intro b hb
    rcases List.mem_append.1 hb with hb | hb
    · exact h.blocks b hb
    · rw [List.mem_singleton] at hb
      subst hb
      exact ⟨by simpa using hx, by simp⟩
  · intro b hb
    rcases List.mem_append.1 hb with hb | hb
    · exact h.nonempty b hb
    · rw [List.mem_singleton] at hb
      subst hb; simp
  · intro b hb
    rw [filter_file_snoc]
    rcases List.mem_append.1 hb with hb | hb
    · rw [if_neg (show ¬ x.toRec.p.file = b.1 from Ne.symm (hn b hb))]
      exact h.order b hb
    · rw [List.mem_singleton] at hb
      subst hb
      have : S.filter (fun r => r.p.file = x.p.file) = [] := by
        rw [List.filter_eq_nil_iff]
        intro r hr
        simpa using hS r hr
      rw [if_pos (show x.toRec.p.file = x.p.file from rfl)]
      simp only
      rw [this]
      rfl
  · simp only [List.flatMap_append, List.flatMap_cons, List.map_cons, List.map_nil,
      List.flatMap_nil, List.append_nil]
    exact h.perm.append_right _

/-- A comment put between the items of its file. -/
theorem Rep.insert {bs1 bs2 : List (Int × List Item)} {B1 B2 : List Item} (x : Item)
    (h : Rep s S (bs1 ++ (x.p.file, B1 ++ B2) :: bs2)) (hx : ItemOk x.p.file x)
    (h1 : ∀ y ∈ B1, y.p.le x.p) (h2 : ∀ y ∈ B2, ¬ y.p.le x.p)
    (hc1 : ∀ y ∈ B1, y.c.isCount = true → y.p.line < x.p.line)
    (hc2 : x.c.isCount = true → ∀ y ∈ B2, x.p.line < y.p.line)
    (hne : ∀ b ∈ bs1 ++ bs2, b.1 ≠ x.p.file) :
    Rep ((bs1 ++ (x.p.file, B1 ++ x :: B2) :: bs2).flatMap (fun b => render b.2)) (S ++ [x.toRec])
      (bs1 ++ (x.p.file, B1 ++ x :: B2) :: bs2) := by
  have hB := h.blocks (x.p.file, B1 ++ B2) (by simp)
  have hsort := List.pairwise_append.1 hB.sorted
  refine ⟨rfl, ?_, ?_, ?_, ?_, ?_⟩
  · simpa using h.files
  · intro b hb
    simp only [List.mem_append, List.mem_cons] at hb
    rcases hb with hb | rfl | hb
    · exact h.blocks b (by simp [hb])
    · refine ⟨?_, ?_⟩
      · intro y hy
        simp only [List.mem_append, List.mem_cons] at hy
        rcases hy with hy | rfl | hy
        · exact hB.items y (by simp [hy])
        · exact hx
        · exact hB.items y (by simp [hy])
      · rw [List.pairwise_append]
        refine ⟨hsort.1, ?_, ?_⟩
        · rw [List.pairwise_cons]
          refine ⟨?_, hsort.2.1⟩
          intro y hy
          refine ⟨?_, fun hc => hc2 hc y hy⟩
          rcases le_total x.p y.p with hh | hh
          · exact hh
          · exact absurd hh (h2 y hy)
        · intro a ha b hb
          rcases List.mem_cons.1 hb with rfl | hb
          · exact ⟨h1 a ha, hc1 a ha⟩
          · exact hsort.2.2 a ha b hb
    · exact h.blocks b (by simp [hb])
  · intro b hb
    simp only [List.mem_append, List.mem_cons] at hb
    rcases hb with hb | rfl | hb
    · exact h.nonempty b (by simp [hb])
    · simp
    · exact h.nonempty b (by simp [hb])
  · intro b hb
    rw [filter_file_snoc]
    simp only [List.mem_append, List.mem_cons] at hb
    rcases hb with hb | rfl | hb
    · rw [if_neg (show ¬ x.toRec.p.file = b.1 from Ne.symm (hne b (by simp [hb])))]
      exact h.order b (by simp [hb])
    · rw [if_pos (show x.toRec.p.file = x.p.file from rfl), textOrder_snoc]
      have := h.order (x.p.file, B1 ++ B2) (by simp)
      simp only at this ⊢
      rw [this, List.map_append, place_split]
      · simp
      · intro y hy
        obtain ⟨z, hz, rfl⟩ := List.mem_map.1 hy
        exact h1 z hz
      · intro y hy
        obtain ⟨z, hz, rfl⟩ := List.mem_map.1 hy
        exact h2 z hz
    · rw [if_neg (show ¬ x.toRec.p.file = b.1 from Ne.symm (hne b (by simp [hb])))]
      exact h.order b (by simp [hb])
  · refine (h.perm.append_right [x.toRec]).trans ?_
    simp only [List.flatMap_append, List.flatMap_cons, List.map_append, List.map_cons]
    simp only [List.append_assoc]
    refine List.Perm.append_left _ (List.Perm.append_left _ ?_)
    rw [List.cons_append, ← List.append_assoc]
    exact List.perm_append_comm

/-! ## Reading a comment -/

theorem comment_mark (s : List Marker) (c : Comment) (p : Pos) :
    comment s c p.loc =
      if c.isCount then
        (if (add s (c.mark p)).2 then
          (if (add (add s (c.mark p)).1 ⟨.ignoreOff, p.lineEnd.loc⟩).2 then
            some (add (add s (c.mark p)).1 ⟨.ignoreOff, p.lineEnd.loc⟩).1 else none)
         else some s)
      else some (add s (c.mark p)).1 := by
  cases c <;> simp only [comment, Comment.isCount, Comment.mark, Bool.false_eq_true, if_false, if_true]
  rfl

/-- The new comment as an item. -/
def newItem (c : Comment) (p : Pos) : Item := ⟨c, p, []⟩

theorem newItem_ok (c : Comment) (p : Pos) (hp : 1 ≤ p.col) : ItemOk p.file (newItem c p) :=
  ⟨rfl, hp, by simp [newItem], by simp [newItem]⟩

theorem newItem_render (c : Comment) (p : Pos) : (newItem c p).render =
    c.mark p :: (if c.isCount then [⟨.ignoreOff, p.lineEnd.loc⟩] else []) := by
  simp [newItem, Item.render, supMarks]

/-- Adding both markers of a counted comment, or the marker of another, in the middle. -/
theorem comment_mid (A B : List Marker) (m : Marker) (c : Comment) (p : Pos)
    (hc : contains (A ++ m :: B) (c.mark p) = false)
    (hr : refused (A ++ m :: B) (c.mark p) = false) (hm : okAt m p.loc = true)
    (hB : ∀ b ∈ B, okAt b p.loc = false)
    (hc2 : c.isCount = true → contains (A ++ m :: c.mark p :: B) ⟨.ignoreOff, p.lineEnd.loc⟩ = false)
    (hr2 : c.isCount = true → refused (A ++ m :: c.mark p :: B) ⟨.ignoreOff, p.lineEnd.loc⟩ = false)
    (hB2 : c.isCount = true → ∀ b ∈ B, okAt b p.lineEnd.loc = false) :
    comment (A ++ m :: B) c p.loc = some (A ++ m :: ((newItem c p).render ++ B)) := by
  rw [comment_mark, add_mid A B m (c.mark p) hc hr (by simpa using hm) (by simpa using hB),
    newItem_render]
  split
  · rename_i hcount
    have e : A ++ m :: c.mark p :: B = (A ++ [m]) ++ c.mark p :: B := by simp
    have := add_mid (A ++ [m]) B (c.mark p) ⟨.ignoreOff, p.lineEnd.loc⟩ (by rw [← e]; exact hc2 hcount)
      (by rw [← e]; exact hr2 hcount)
      ((okAt_loc' (mark_loc c p)).2 ⟨rfl, by unfold Pos.le Pos.lineEnd; simp⟩)
      (hB2 hcount)
    simp only [if_true]
    rw [e, this]
    simp
  · simp

theorem comment_end (s : List Marker) (c : Comment) (p : Pos)
    (hc : contains s (c.mark p) = false)
    (hr : refused s (c.mark p) = false) (hs : ∀ b ∈ s, okAt b p.loc = false)
    (hc2 : c.isCount = true → contains (s ++ [c.mark p]) ⟨.ignoreOff, p.lineEnd.loc⟩ = false)
    (hr2 : c.isCount = true → refused (s ++ [c.mark p]) ⟨.ignoreOff, p.lineEnd.loc⟩ = false) :
    comment s c p.loc = some (s ++ (newItem c p).render) := by
  rw [comment_mark, add_end s (c.mark p) hc hr (by simpa using hs), newItem_render]
  split
  · rename_i hcount
    have := add_mid s [] (c.mark p) ⟨.ignoreOff, p.lineEnd.loc⟩ (hc2 hcount)
      (hr2 hcount)
      ((okAt_loc' (mark_loc c p)).2 ⟨rfl, by unfold Pos.le Pos.lineEnd; simp⟩)
      (by simp)
    simp only [if_true]
    rw [this]
    simp
  · simp

/-- The end of a counted line is not in the list. -/
theorem lineEnd_new (h : Rep s S bs) (c : Comment) (p : Pos) (hcount : c.isCount = true)
    (hc : ∀ r ∈ S, r.p.file = p.file → r.p.line = p.line → r.c.isCount = false)
    (s' : List Marker) (hs' : ∀ m ∈ s', m ∈ s ∨ m = c.mark p) :
    contains s' ⟨.ignoreOff, p.lineEnd.loc⟩ = false := by
  rw [← Bool.not_eq_true]
  unfold contains
  rw [List.any_eq_true]
  rintro ⟨m, hm, he⟩
  rcases hs' m hm with hm | rfl
  · obtain ⟨r, hr, hcol, rfl | ⟨k, hk⟩ | ⟨hrc, rfl⟩⟩ := h.marker hm
    · have := loc_equal r.p p.lineEnd
      cases hrc : r.c <;> simp [Marker.equal, Comment.mark, hrc] at he
      have := this.1 he
      rw [this] at hcol
      simp [Pos.lineEnd] at hcol
    · simp [Marker.equal, hk] at he
    · simp [Marker.equal] at he
      have := (loc_equal _ _).1 he
      simp only [Pos.lineEnd, Pos.mk.injEq] at this
      have := hc r hr this.1 (by omega)
      simp [this] at hrc
  · cases c <;> simp [Comment.isCount] at hcount
    simp [Marker.equal, Comment.mark] at he

theorem comment_rep (h : Rep s S bs) (c : Comment) (p : Pos) (hw : WellPlaced S c p) :
    ∃ s' bs', comment s c p.loc = some s' ∧ Rep s' (record S c p) bs' := by
  obtain ⟨hcol, hw⟩ := hw
  by_cases hex : ∃ r ∈ S, r.c = c ∧ r.p = p
  · refine ⟨s, bs, ?_, ?_⟩
    · have hcon := (h.contains_iff c p hcol).2 hex
      rw [comment_mark]
      have : add s (c.mark p) = (s, false) := by simp [add, hcon]
      simp [this]
    · unfold record; rw [if_pos hex]; exact h
  · rcases hw with hw | ⟨hfirst, hnc, hcnt⟩
    · exact absurd hw hex
    have hcon : contains s (c.mark p) = false := by
      rw [← Bool.not_eq_true, h.contains_iff c p hcol]; exact hex
    have hsl : ∀ m ∈ s, m.isIgnoreCount = true → ∀ r ∈ S, r.c.isCount = true → m.loc = r.p.loc →
        (c.mark p).loc.sameFileAndLine m.loc = false := by
      intro m _ _ r hr hrc hml
      rw [hml, mark_loc, ← Bool.not_eq_true, sameLine]
      rintro ⟨h1, h2⟩
      rw [hnc r hr h1.symm h2.symm] at hrc
      cases hrc
    have href : refused s (c.mark p) = false := by
      apply refused_false
      · intro m hm hmc
        rw [h.last m hm] at hmc; cases hmc
      · intro m hm hmc
        obtain ⟨r, hr, hrc, hml⟩ := count_marker h hm hmc
        exact hsl m hm hmc r hr hrc hml
    have hrec : record S c p = S ++ [(newItem c p).toRec] := by
      unfold record; rw [if_neg hex]; rfl
    have hx := newItem_ok c p hcol
    have href2 : ∀ s', (∀ m ∈ s', m ∈ s ∨ m = c.mark p) → c.isCount = true →
        refused s' ⟨.ignoreOff, p.lineEnd.loc⟩ = false := by
      intro s' hs' hcount
      apply refused_false
      · intro m _ _; rfl
      · intro m hm hmc
        rw [← Bool.not_eq_true]
        rcases hs' m hm with hm | rfl
        · obtain ⟨r, hr, hrc, hml⟩ := count_marker h hm hmc
          rw [hml, sameLine]
          rintro ⟨h1, h2⟩
          have := (hcnt hcount r hr h1.symm).2 h2.symm
          rw [this] at hrc; cases hrc
        · rw [mark_loc, sameLine]
          simp [Pos.lineEnd]
    rcases h.block p.file with ⟨hS, hb⟩ | ⟨bs1, B, bs2, rfl, hb1, hb2⟩
    · refine ⟨_, bs ++ [(p.file, [newItem c p])], comment_end s c p hcon href ?_ ?_ ?_, ?_⟩
      · rw [h.eq]; exact others_notOk h.blocks p hb
      · intro hcount
        exact lineEnd_new h c p hcount hnc _ (by simp)
      · exact href2 _ (by simp)
      · rw [hrec]
        exact h.newFile (newItem c p) hx hb hS
    · have hBok := h.blocks (p.file, B) (by simp)
      obtain ⟨B1, B2, hBe, h1, h2⟩ := split_at hBok p
      simp only at hBe
      subst hBe
      have hBmem : ∀ y ∈ B1 ++ B2, y.toRec ∈ S ∧ y.p.file = p.file := by
        intro y hy
        exact ⟨(h.mem_iff _).2 ⟨(p.file, B1 ++ B2), by simp, y, hy, rfl⟩, (hBok.items y hy).file⟩
      have hne1 : B1 ≠ [] := by
        rintro rfl
        rcases hfirst with hf | ⟨r, hr, hrf, hrl⟩
        · have hBn := h.nonempty (p.file, [] ++ B2) (by simp)
          obtain ⟨y, hy⟩ := List.exists_mem_of_ne_nil _ hBn
          exact hf _ (hBmem y hy).1 (hBmem y hy).2
        · obtain ⟨b, hb, y, hy, rfl⟩ := (h.mem_iff r).1 hr
          have hbf : b.1 = p.file := by rw [← ((h.blocks b hb).items y hy).file]; exact hrf
          simp only [List.mem_append, List.mem_cons] at hb
          rcases hb with hb | rfl | hb
          · exact hb1 b hb hbf
          · exact h2 y (by simpa using hy) hrl
          · exact hb2 b hb hbf
      obtain ⟨B1', x, rfl⟩ : ∃ B1' x, B1 = B1' ++ [x] :=
        ⟨B1.dropLast, B1.getLast hne1, (List.dropLast_append_getLast hne1).symm⟩
      obtain ⟨R, m, hR, hml, -⟩ := render_last x
      have hxm := hBmem x (by simp)
      have hxle := h1 x (by simp)
      have hmok : okAt m p.loc = true := by
        refine (okAt_loc' hml).2 ?_
        split
        · rename_i hxc
          refine ⟨hxm.2, ?_⟩
          have : x.p.line ≠ p.line := by
            intro hl
            have := hnc x.toRec hxm.1 hxm.2 hl
            simp [Item.toRec, hxc] at this
          unfold Pos.le Pos.lineEnd at *
          simp only
          omega
        · exact ⟨hxm.2, hxle⟩
      have hse : s = (bs1.flatMap (fun b => render b.2) ++ render B1' ++ R) ++ m ::
          (render B2 ++ bs2.flatMap (fun b => render b.2)) := by
        rw [h.eq]
        simp [render_append, render_cons, render, hR]
      have hBnot : ∀ q : Pos, q.file = p.file → (∀ y ∈ B2, ¬ y.p.le q) →
          ∀ b ∈ render B2 ++ bs2.flatMap (fun b => render b.2), okAt b q.loc = false := by
        intro q hqf hq b hb
        rcases List.mem_append.1 hb with hb | hb
        · exact after_notOk (f := p.file) (fun y hy => hBok.items y (by simp [hy])) q hq b hb
        · exact others_notOk (fun b hb => h.blocks b (by simp [hb])) q
            (fun b hb => by rw [hqf]; exact hb2 b hb) b hb
      have hlate : c.isCount = true → ∀ y ∈ B2, p.line < y.p.line := by
        intro hcount y hy
        have hy' := hBmem y (by simp [hy])
        have h3 : y.p.line ≠ p.line := fun hl => h2 y hy ((hcnt hcount _ hy'.1 hy'.2).1 hl)
        have := h2 y hy
        unfold Pos.le at this
        omega
      have hsub : ∀ m' ∈ (bs1.flatMap (fun b => render b.2) ++ render B1' ++ R) ++ m :: c.mark p ::
          (render B2 ++ bs2.flatMap (fun b => render b.2)), m' ∈ s ∨ m' = c.mark p := by
        intro m' hm'
        rw [hse]
        simp only [List.mem_append, List.mem_cons] at hm' ⊢
        tauto
      have hcm := comment_mid (bs1.flatMap (fun b => render b.2) ++ render B1' ++ R)
        (render B2 ++ bs2.flatMap (fun b => render b.2)) m c p (by rw [← hse]; exact hcon)
        (by rw [← hse]; exact href) hmok (hBnot p rfl h2)
        (fun hcount => lineEnd_new h c p hcount hnc _ hsub) (href2 _ hsub)
        (by
          intro hcount
          apply hBnot p.lineEnd rfl
          intro y hy hle
          have h3 := hlate hcount y hy
          have h4 := (hBok.items y (by simp [hy])).col
          unfold Pos.le Pos.lineEnd at hle
          simp only at hle
          omega)
      rw [← hse] at hcm
      have hins := Rep.insert (bs1 := bs1) (bs2 := bs2) (B1 := B1' ++ [x]) (B2 := B2) (newItem c p) h hx
        h1 h2
        (by
          intro y hy hyc
          have hy' := hBmem y (by simp only [List.mem_append] at hy ⊢; tauto)
          have h3 : y.p.line ≠ p.line := by
            intro hl
            have := hnc y.toRec hy'.1 hy'.2 hl
            simp [Item.toRec, hyc] at this
          have := h1 y hy
          unfold Pos.le at this
          show y.p.line < p.line
          omega)
        hlate
        (by
          intro b hb
          rcases List.mem_append.1 hb with hb | hb
          · exact hb1 b hb
          · exact hb2 b hb)
      refine ⟨_, bs1 ++ ((newItem c p).p.file, (B1' ++ [x]) ++ newItem c p :: B2) :: bs2, hcm, ?_⟩
      rw [hrec]
      convert hins using 1
      simp [render_append, render_cons, render, hR]

end Splint.FlagMarkers
