import Verif.Spec.OpenFiles
/-!
# Proofs about the table of open files (C144)
-/
namespace Splint
namespace OpenFiles

/-- The cells in use are the streams, followed by `nopenspace` others. -/
def Rep (t : Table) (l : List Nat) : Prop :=
  ∃ rest : List (Option Nat), t.cells = l.map some ++ rest ∧ t.nopen = l.length ∧ rest.length = t.nopenspace

theorem Rep.content {t : Table} {l : List Nat} (h : Rep t l) : t.content = l := by
  obtain ⟨rest, h1, h2, _⟩ := h
  unfold Table.content
  rw [h1, h2, List.take_append_of_le_length (by simp), List.take_of_length_le (by simp)]
  simp [List.filterMap_map]

theorem rep_create : Rep create [] := ⟨List.replicate baseSize none, rfl, rfl, List.length_replicate ..⟩

theorem addOpen_rep {t : Table} {l : List Nat} (h : Rep t l) (f : Nat) : ∃ t', addOpen t f = some t' ∧ Rep t' (l ++ [f]) := by
  have put : ∀ {t : Table}, Rep t l → t.nopenspace ≠ 0 →
      ∃ t', (if t.nopen < t.cells.length then
        some (⟨t.cells.set t.nopen (some f), t.nopen + 1, t.nopenspace - 1⟩ : Table) else none) = some t' ∧ Rep t' (l ++ [f]) := by
    rintro t ⟨rest, h1, h2, h3⟩ hne
    cases rest with
    | nil => exact absurd h3.symm hne
    | cons c rest =>
      rw [if_pos (by rw [h1, h2]; simp)]
      refine ⟨_, rfl, rest, ?_, by simp [h2], ?_⟩
      · rw [h1, h2]
        rw [List.set_append_right _ _ (by simp)]
        simp
      · simp at h3; dsimp only; omega
  unfold addOpen
  by_cases hz : t.nopenspace = 0
  · rw [if_pos hz]
    obtain ⟨rest, h1, h2, h3⟩ := h
    rw [hz] at h3
    have hr : rest = [] := List.eq_nil_of_length_eq_zero h3
    subst hr
    have hg : grow t = some ⟨l.map some ++ List.replicate baseSize none, l.length, baseSize⟩ := by
      unfold grow
      rw [h1, h2, List.append_nil, if_pos (by simp), List.take_of_length_le (by simp)]
    rw [hg]
    exact put ⟨List.replicate baseSize none, rfl, rfl, List.length_replicate ..⟩ (by show baseSize ≠ 0; decide)
  · rw [if_neg hz]
    exact put h hz

theorem search_spec (f : Nat) (rest : List (Option Nat)) : ∀ (l pre : List Nat),
    search ((pre ++ l).map some ++ rest) f l.length pre.length =
      some ((l.idxOf? f).map (· + pre.length)) := by
  intro l
  induction l with
  | nil => intro pre; rfl
  | cons g l ih =>
    intro pre
    rw [List.length_cons, search]
    have hc : ((pre ++ g :: l).map some ++ rest)[pre.length]? = some (some g) := by
      rw [List.getElem?_append_left (by simp)]
      simp
    rw [hc]
    dsimp only
    by_cases hg : g = f
    · subst hg
      simp [List.idxOf?_cons]
    · rw [if_neg hg]
      have := ih (pre ++ [g])
      rw [List.append_assoc, List.length_append] at this
      simp only [List.singleton_append, List.length_singleton] at this
      rw [this, List.idxOf?_cons]
      have hb : (g == f) = false := by simpa using hg
      rw [hb]
      simp only [Bool.false_eq_true, if_false, Option.map_map]
      congr 1
      congr 1
      funext x
      simp only [Function.comp]
      omega

theorem idxOf?_first {f : Nat} {a b : List Nat} (h : f ∉ a) : (a ++ f :: b).idxOf? f = some a.length := by
  induction a with
  | nil => simp [List.idxOf?_cons]
  | cons g a ih =>
    rw [List.cons_append, List.idxOf?_cons]
    have hb : (g == f) = false := by
      simp only [beq_eq_false_iff_ne, ne_eq]; intro hq; exact h (hq ▸ List.mem_cons_self ..)
    rw [hb, ih (fun hq => h (List.mem_cons_of_mem _ hq))]
    simp

theorem closeFile_rep {t : Table} {l : List Nat} (h : Rep t l) (f : Nat) :
    (f ∉ l → closeFile t f = none) ∧
    (f ∈ l → ∃ t' l', closeFile t f = some t' ∧ Rep t' l' ∧ l'.Perm (l.erase f)) := by
  obtain ⟨rest, h1, h2, h3⟩ := h
  have hs : search t.cells f t.nopen 0 = some (l.idxOf? f) := by
    have := search_spec f rest l []
    simp only [List.nil_append, List.length_nil, Nat.add_zero, Option.map_id'] at this
    rw [h1, h2]; exact this
  unfold closeFile
  rw [hs]
  constructor
  · intro hf
    rw [List.idxOf?_eq_none_iff.2 hf]
  · intro hf
    obtain ⟨a, b, rfl, hfa⟩ := List.eq_append_cons_of_mem hf
    rw [idxOf?_first hfa]
    dsimp only
    have herase : (a ++ f :: b).erase f = a ++ b := by
      rw [List.erase_append_right _ hfa, List.erase_cons_head]
    rw [herase]
    rcases List.eq_nil_or_concat b with rfl | ⟨b', z, rfl⟩
    · rw [if_pos (by rw [h2]; simp)]
      refine ⟨_, a, rfl, ⟨none :: rest, ?_, by simp [h2], by simp [h3]⟩, by simp⟩
      dsimp only
      rw [h1]
      simp only [List.map_append, List.map_cons, List.map_nil, List.append_assoc, List.cons_append, List.nil_append]
      rw [List.set_append_right _ _ (by simp)]
      simp
    · rw [if_neg (by rw [h2]; simp)]
      have hl : t.nopen - 1 = (a ++ f :: b').length := by rw [h2]; simp
      have hc : t.cells[t.nopen - 1]? = some (some z) := by
        rw [h1, hl]
        have : (a ++ f :: b'.concat z).map some ++ rest = (a ++ f :: b').map some ++ (some z :: rest) := by simp
        rw [this, List.getElem?_append_right (by simp)]
        simp
      rw [hc]
      refine ⟨_, a ++ z :: b', rfl, ⟨none :: rest, ?_, by rw [hl]; simp, by simp [h3]⟩, ?_⟩
      · dsimp only
        rw [hl, h1]
        have : (a ++ f :: b'.concat z).map some ++ rest = a.map some ++ (some f :: (b'.map some ++ (some z :: rest))) := by simp
        rw [this, List.set_append_right _ _ (by simp)]
        simp only [List.length_map, Nat.sub_self, List.set_cons_zero]
        have h4 : a.map some ++ (some z :: (b'.map some ++ (some z :: rest))) = (a ++ z :: b').map some ++ (some z :: rest) := by simp
        rw [h4, List.set_append_right _ _ (by simp)]
        simp
      · refine List.Perm.append_left _ ?_
        rw [List.concat_eq_append]
        exact (List.perm_append_singleton z b').symm

theorem closeLoop_spec (rest : List (Option Nat)) : ∀ (l : List Nat) (pre : List (Option Nat)),
    closeLoop (pre ++ l.map some ++ rest) l.length pre.length = some (pre ++ List.replicate l.length none ++ rest, l) := by
  intro l
  induction l with
  | nil => intro pre; simp [closeLoop]
  | cons g l ih =>
    intro pre
    rw [List.length_cons, closeLoop]
    have hc : (pre ++ (g :: l).map some ++ rest)[pre.length]? = some (some g) := by
      rw [List.append_assoc, List.getElem?_append_right (le_refl _)]
      simp
    rw [hc]
    dsimp only
    have hset : (pre ++ (g :: l).map some ++ rest).set pre.length none = (pre ++ [none]) ++ l.map some ++ rest := by
      rw [List.append_assoc, List.set_append_right _ _ (le_refl _)]
      simp
    rw [hset]
    have := ih (pre ++ [none])
    rw [List.length_append] at this
    simp only [List.length_singleton] at this
    rw [this]
    simp [List.replicate_succ]

theorem closeAll_rep {t : Table} {l : List Nat} (h : Rep t l) : ∃ t', closeAll t = some (t', l) ∧ Rep t' [] := by
  obtain ⟨rest, h1, h2, h3⟩ := h
  unfold closeAll
  have := closeLoop_spec rest l []
  simp only [List.nil_append, List.length_nil] at this
  rw [h1, h2, this]
  refine ⟨_, rfl, List.replicate l.length none ++ rest, rfl, rfl, ?_⟩
  simp [h3]; omega

theorem openAfter_perm : ∀ (ops : List Op) {l l' : List Nat}, l.Perm l' →
    (openAfter l ops = none ↔ openAfter l' ops = none) ∧
    ∀ r, openAfter l ops = some r → ∃ r', openAfter l' ops = some r' ∧ r.Perm r' := by
  intro ops
  induction ops with
  | nil => intro l l' h; exact ⟨by simp [openAfter], fun r hr => ⟨l', rfl, by have := Option.some.inj hr; subst this; exact h⟩⟩
  | cons op ops ih =>
    intro l l' h
    cases op with
    | opened f => exact ih (h.cons f)
    | close f =>
      rw [openAfter, openAfter]
      by_cases hf : f ∈ l
      · rw [if_pos hf, if_pos (h.mem_iff.1 hf)]
        exact ih (h.erase f)
      · rw [if_neg hf, if_neg (fun q => hf (h.mem_iff.2 q))]
        exact ⟨Iff.rfl, fun r hr => by cases hr⟩
    | closeAll => exact ih (List.Perm.refl _)

theorem run_spec : ∀ (ops : List Op) (t : Table) (l closed : List Nat), Rep t l →
    (run t closed ops = none ↔ openAfter l ops = none) ∧
    ∀ t' closed', run t closed ops = some (t', closed') →
      (∃ r, openAfter l ops = some r ∧ t'.content.Perm r) ∧
      (t'.content ++ closed').Perm (l ++ closed ++ allOpened ops) := by
  intro ops
  induction ops with
  | nil =>
    intro t l closed h
    refine ⟨by simp [run, openAfter], ?_⟩
    intro t' closed' hr
    have hr := Option.some.inj hr
    obtain ⟨rfl, rfl⟩ := Prod.mk.inj hr
    refine ⟨⟨l, rfl, by rw [h.content]⟩, by rw [h.content]; simp [allOpened]⟩
  | cons op ops ih =>
    intro t l closed h
    rw [run]
    cases op with
    | opened f =>
      obtain ⟨t1, h1, h2⟩ := addOpen_rep h f
      simp only [step, h1, Option.map_some, Option.bind_some]
      obtain ⟨i1, i2⟩ := ih t1 (l ++ [f]) closed h2
      have hp : (l ++ [f]).Perm (f :: l) := List.perm_append_singleton f l
      obtain ⟨p1, p2⟩ := openAfter_perm ops hp
      refine ⟨i1.trans p1, ?_⟩
      intro t' closed' hr
      obtain ⟨⟨r, q1, q2⟩, q3⟩ := i2 t' closed' hr
      obtain ⟨r', g1, g2⟩ := p2 r q1
      refine ⟨⟨r', g1, q2.trans g2⟩, q3.trans ?_⟩
      rw [allOpened]
      have : (l ++ [f] ++ closed).Perm (l ++ closed ++ [f]) := by
        rw [List.append_assoc, List.append_assoc]
        exact List.Perm.append_left _ List.perm_append_comm
      have h5 := this.append_right (allOpened ops)
      rw [List.append_assoc (l ++ closed)] at h5
      exact h5
    | close f =>
      obtain ⟨c1, c2⟩ := closeFile_rep h f
      rw [openAfter]
      by_cases hf : f ∈ l
      · obtain ⟨t1, l1, h1, h2, h3⟩ := c2 hf
        rw [if_pos hf]
        simp only [step, h1, Option.map_some, Option.bind_some]
        obtain ⟨i1, i2⟩ := ih t1 l1 (closed ++ [f]) h2
        obtain ⟨p1, p2⟩ := openAfter_perm ops h3
        refine ⟨i1.trans p1, ?_⟩
        intro t' closed' hr
        obtain ⟨⟨r, q1, q2⟩, q3⟩ := i2 t' closed' hr
        obtain ⟨r', g1, g2⟩ := p2 r q1
        refine ⟨⟨r', g1, q2.trans g2⟩, q3.trans ?_⟩
        rw [allOpened]
        refine List.Perm.append_right _ ?_
        have h6 : (l1 ++ (closed ++ [f])).Perm (f :: (l.erase f) ++ closed) := by
          refine (h3.append_right _).trans ?_
          have := (List.perm_append_comm (l₁ := l.erase f ++ closed) (l₂ := [f]))
          rw [List.append_assoc] at this
          exact this
        exact h6.trans ((List.perm_cons_erase hf).symm.append_right closed)
      · rw [if_neg hf]
        simp only [step, c1 hf, Option.map_none, Option.bind_none]
        exact ⟨by simp, fun t' c' hr => by cases hr⟩
    | closeAll =>
      obtain ⟨t1, h1, h2⟩ := closeAll_rep h
      simp only [step, h1, Option.map_some, Option.bind_some]
      obtain ⟨i1, i2⟩ := ih t1 [] (closed ++ l) h2
      rw [openAfter]
      refine ⟨i1, ?_⟩
      intro t' closed' hr
      obtain ⟨q1, q3⟩ := i2 t' closed' hr
      refine ⟨q1, q3.trans ?_⟩
      rw [allOpened]
      exact List.Perm.append_right _ (by rw [List.nil_append]; exact List.perm_append_comm)

/-- **C144 (the table).**  Whatever is opened and closed, the array is used within its bounds; the only error is to close a
stream that is not open; the table has exactly the streams that are open, and every stream opened is closed once or
still in the table. -/
theorem C144_table_partial (ops : List Op) :
    (run create [] ops = none ↔ openAfter [] ops = none) ∧
    ∀ t closed, run create [] ops = some (t, closed) →
      (∃ l, openAfter [] ops = some l ∧ t.content.Perm l) ∧ (t.content ++ closed).Perm (allOpened ops) := by
  have := run_spec ops create [] [] rep_create
  simpa using this

/-- **C144 (closing all).**  After all files have been closed, every stream that was ever opened has been closed, once. -/
theorem C144_closeAll (ops : List Op) (t : Table) (closed : List Nat) (h : run create [] (ops ++ [.closeAll]) = some (t, closed)) :
    t.content = [] ∧ closed.Perm (allOpened ops) := by
  obtain ⟨_, h1⟩ := C144_table_partial (ops ++ [.closeAll])
  obtain ⟨⟨l, h2, h3⟩, h4⟩ := h1 t closed h
  have hl : ∀ (ops : List Op) (a l : List Nat), openAfter a (ops ++ [.closeAll]) = some l → l = [] := by
    intro ops
    induction ops with
    | nil => intro a l h; exact (Option.some.inj h).symm
    | cons op ops ih =>
      intro a l h
      cases op with
      | opened f => exact ih _ _ h
      | close f =>
        rw [List.cons_append, openAfter] at h
        by_cases hf : f ∈ a
        · rw [if_pos hf] at h; exact ih _ _ h
        · rw [if_neg hf] at h; cases h
      | closeAll => exact ih _ _ h
  have ha : ∀ ops : List Op, allOpened (ops ++ [.closeAll]) = allOpened ops := by
    intro ops
    induction ops with
    | nil => rfl
    | cons op ops ih => cases op <;> simp [allOpened, ih]
  have hnil := hl _ _ _ h2
  subst hnil
  have hc : t.content = [] := h3.eq_nil
  rw [hc, ha, List.nil_append] at h4
  exact ⟨hc, h4⟩

/-- **C144 (name maps).**  The check after the file of name maps is closed is reported as failed exactly if closing succeeds. -/
theorem C144_map_exactly (ok : Bool) : mapCheckFails ok = true ↔ ok = true := by cases ok <;> decide

theorem C144_full_is_false : ¬ C144_full := fun h => by have := h.2 true; revert this; decide

/-- the table has 64 cells, then it grows; the last stream takes the place of the one that is closed -/
example : (run create [] [.opened 1, .opened 2, .opened 3, .close 1, .opened 4]).map (fun r => (r.1.content, r.2)) =
    some ([3, 2, 4], [1]) := by decide +kernel

example : (run create [] ((List.range 66).map .opened ++ [.close 3, .closeAll])).map (fun r => (r.1.content, r.1.cells.length, r.2.length)) =
    some ([], 128, 66) := by decide +kernel

/-- a stream that is not open is closed: an internal error -/
example : run create [] [.opened 1, .close 2] = none := by decide +kernel

end OpenFiles
end Splint
