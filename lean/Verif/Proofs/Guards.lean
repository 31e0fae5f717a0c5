import Verif.Spec.Guards
import Verif.Proofs.AliasTable
/-! # Lemmas about guards -/
namespace Splint
open SRef SRefSet

namespace Guards

/-- Where the elements of a set come from. -/
theorem mem_foldl_ins (cm : Nat → Nat → Bool) (xs : List SRef) : ∀ (l : List SRef) {x : SRef},
    x ∈ xs.foldl (ins cm) l → x ∈ l ∨ x ∈ xs := by
  induction xs with
  | nil => intro l x h; exact Or.inl h
  | cons y ys ih =>
    intro l x h
    rcases ih _ h with h | h
    · rcases Splint.mem_ins h with h | h
      · exact Or.inl h
      · exact Or.inr (by simp [h])
    · exact Or.inr (by simp [h])

/-- The guards hold of the value `v`, in the world `W`, and are among `R`. -/
structure Holds (W : World) (R : List SRef) (g : Guards) (v : Int) : Prop where
  fitT : FitsO g.trueSet
  fitF : FitsO g.falseSet
  t : ∀ e ∈ elemsOf g.trueSet, e ∈ R ∧ (v ≠ 0 → W.ref e ≠ 0)
  f : ∀ e ∈ elemsOf g.falseSet, e ∈ R ∧ (v = 0 → W.ref e ≠ 0)

theorem Holds.empty (W : World) (R : List SRef) (v : Int) : Holds W R none v :=
  ⟨trivial, trivial, by simp [trueSet, elemsOf], by simp [falseSet, elemsOf]⟩

theorem Holds.mono {W : World} {R S : List SRef} {g : Guards} {v : Int} (h : Holds W R g v)
    (hs : ∀ e ∈ R, e ∈ S) : Holds W S g v :=
  ⟨h.fitT, h.fitF, fun e he => ⟨hs e (h.t e he).1, (h.t e he).2⟩,
    fun e he => ⟨hs e (h.f e he).1, (h.f e he).2⟩⟩

theorem copy_true (g : Guards) : elemsOf g.copy.trueSet = elemsOf g.trueSet := by
  cases g with
  | none => rfl
  | some g => exact newCopy_elems _

theorem copy_false (g : Guards) : elemsOf g.copy.falseSet = elemsOf g.falseSet := by
  cases g with
  | none => rfl
  | some g => exact newCopy_elems _

theorem invert_true (g : Guards) : elemsOf g.invert.trueSet = elemsOf g.falseSet := by
  cases g with
  | none => rfl
  | some g => exact newCopy_elems _

theorem invert_false (g : Guards) : elemsOf g.invert.falseSet = elemsOf g.trueSet := by
  cases g with
  | none => rfl
  | some g => exact newCopy_elems _

theorem copy_fit (g : Guards) : FitsO g.copy.trueSet ∧ FitsO g.copy.falseSet := by
  cases g with
  | none => exact ⟨trivial, trivial⟩
  | some g => exact ⟨newCopy_fits _, newCopy_fits _⟩

theorem flip_true (g : Guards) : g.flip.trueSet = g.falseSet := by cases g <;> rfl

theorem flip_false (g : Guards) : g.flip.falseSet = g.trueSet := by cases g <;> rfl

theorem Holds.copy {W : World} {R : List SRef} {g : Guards} {v : Int} (h : Holds W R g v) :
    Holds W R g.copy v :=
  ⟨(copy_fit g).1, (copy_fit g).2, by rw [copy_true]; exact h.t, by rw [copy_false]; exact h.f⟩

theorem Holds.flip {W : World} {R : List SRef} {g : Guards} {v w : Int} (h : Holds W R g v)
    (hw : w ≠ 0 ↔ v = 0) : Holds W R g.flip w := by
  refine ⟨by rw [flip_true]; exact h.fitF, by rw [flip_false]; exact h.fitT, ?_, ?_⟩
  · rw [flip_true]; exact fun e he => ⟨(h.f e he).1, fun hv => (h.f e he).2 (hw.1 hv)⟩
  · rw [flip_false]
    refine fun e he => ⟨(h.t e he).1, fun hv => (h.t e he).2 fun h0 => ?_⟩
    exact (hw.2 h0) hv

theorem Holds.addTrue (cm : Nat → Nat → Bool) {W : World} {R : List SRef} {g : Guards} {v : Int}
    (h : Holds W R g v) (s : Option SRef) (hs : ∀ x, s = some x → x ∈ R ∧ (v ≠ 0 → W.ref x ≠ 0)) :
    ∃ g', addTrue cm g s = some g' ∧ Holds W R g' v := by
  cases s with
  | none => exact ⟨g, rfl, h⟩
  | some x =>
    by_cases hm : meaningful x = true
    · obtain ⟨s', h1, h2, h3⟩ := insert_spec cm g.trueSet x h.fitT
      refine ⟨some ⟨some s', g.falseSet⟩, by simp [Guards.addTrue, hm, h1], h3, h.fitF, ?_, h.f⟩
      intro e he
      have he : e ∈ s'.elems := he
      rw [h2] at he
      rcases Splint.mem_ins he with he | rfl
      · exact h.t e he
      · exact hs _ rfl
    · exact ⟨g, by simp [Guards.addTrue, hm], h⟩

theorem Holds.addFalse (cm : Nat → Nat → Bool) {W : World} {R : List SRef} {g : Guards} {v : Int}
    (h : Holds W R g v) (s : Option SRef) (hs : ∀ x, s = some x → x ∈ R ∧ (v = 0 → W.ref x ≠ 0)) :
    ∃ g', addFalse cm g s = some g' ∧ Holds W R g' v := by
  cases s with
  | none => exact ⟨g, rfl, h⟩
  | some x =>
    by_cases hm : meaningful x = true
    · obtain ⟨s', h1, h2, h3⟩ := insert_spec cm g.falseSet x h.fitF
      refine ⟨some ⟨g.trueSet, some s'⟩, by simp [Guards.addFalse, hm, h1], h.fitT, h3, h.t, ?_⟩
      intro e he
      have he : e ∈ s'.elems := he
      rw [h2] at he
      rcases Splint.mem_ins he with he | rfl
      · exact h.f e he
      · exact hs _ rfl
    · exact ⟨g, by simp [Guards.addFalse, hm], h⟩

theorem union_mem (cm : Nat → Nat → Bool) (a b : Option SRefSet) (h : FitsO a) :
    ∃ c, SRefSet.union cm a b = some c ∧ FitsO c ∧ ∀ e ∈ elemsOf c, e ∈ elemsOf a ∨ e ∈ elemsOf b := by
  obtain ⟨c, h1, h2, h3⟩ := union_spec cm a b h
  refine ⟨c, h1, h2, ?_⟩
  intro e he
  rw [h3] at he
  split at he
  · exact Or.inr he
  · exact mem_foldl_ins cm _ _ he

theorem intersect_mem (cm : Nat → Nat → Bool) (a b : Option SRefSet) :
    ∃ c, intersect cm a b = some c ∧ FitsO c ∧
      ∀ e ∈ elemsOf c, e ∈ elemsOf a ∧ ∃ u ∈ elemsOf b, e.similar u = true := by
  obtain ⟨c, h1, h2, h3⟩ := insertAll_spec cm
    ((elemsOf a).filter fun el => member (elemsOf b) el) none trivial
  refine ⟨c, h1, h3, ?_⟩
  intro e he
  rw [h2] at he
  rcases mem_foldl_ins cm _ _ he with he | he
  · simp [elemsOf] at he
  · rw [List.mem_filter] at he
    exact ⟨he.1, by simpa [member] using he.2⟩

/-- References that are similar are not null together. -/
def Respects (W : World) (R : List SRef) : Prop :=
  ∀ s ∈ R, ∀ t ∈ R, s.similar t = true → W.ref t ≠ 0 → W.ref s ≠ 0

theorem Holds.and_ (cm : Nat → Nat → Bool) {W : World} {R : List SRef} {g h : Guards} {v w u : Int}
    (hr : Respects W R) (hg : Holds W R g v) (hh : Holds W R h w) (hu : u ≠ 0 ↔ v ≠ 0 ∧ w ≠ 0) :
    ∃ k, Guards.and_ cm g h = some k ∧ Holds W R k u := by
  have hu0 : u = 0 → v = 0 ∨ w = 0 := by
    intro h0
    by_contra hc
    push Not at hc
    exact (hu.2 hc) h0
  cases h with
  | none =>
    cases g with
    | none => exact ⟨none, rfl, Holds.empty ..⟩
    | some g =>
      exact ⟨some ⟨g.tguard, none⟩, rfl, hg.fitT, trivial,
        fun e he => ⟨(hg.t e he).1, fun h0 => (hg.t e he).2 (hu.1 h0).1⟩, by simp [falseSet, elemsOf]⟩
  | some h =>
    obtain ⟨a, a1, a2, a3⟩ := union_mem cm g.trueSet h.tguard hg.fitT
    obtain ⟨b, b1, b2, b3⟩ := intersect_mem cm g.falseSet h.fguard
    refine ⟨some ⟨a, b⟩, ?_, a2, b2, ?_, ?_⟩
    · cases g <;> simp only [Guards.and_] <;> rw [a1, Option.bind_eq_bind, Option.bind_some, b1] <;> rfl
    · intro e he
      rcases a3 e he with he | he
      · exact ⟨(hg.t e he).1, fun h0 => (hg.t e he).2 (hu.1 h0).1⟩
      · exact ⟨(hh.t e he).1, fun h0 => (hh.t e he).2 (hu.1 h0).2⟩
    · intro e he
      obtain ⟨h1, x, h2, h3⟩ := b3 e he
      refine ⟨(hg.f e h1).1, fun h0 => ?_⟩
      rcases hu0 h0 with h0 | h0
      · exact (hg.f e h1).2 h0
      · exact hr e (hg.f e h1).1 x (hh.f x h2).1 h3 ((hh.f x h2).2 h0)

theorem Holds.or_ (cm : Nat → Nat → Bool) {W : World} {R : List SRef} {g h : Guards} {v w u : Int}
    (hr : Respects W R) (hg : Holds W R g v) (hh : Holds W R h w) (hu : u ≠ 0 ↔ v ≠ 0 ∨ w ≠ 0) :
    ∃ k, Guards.or_ cm g h = some k ∧ Holds W R k u := by
  have hu0 : u = 0 → v = 0 ∧ w = 0 := by
    intro h0
    by_contra hc
    have : v ≠ 0 ∨ w ≠ 0 := by
      by_cases hv : v = 0
      · exact Or.inr fun hw => hc ⟨hv, hw⟩
      · exact Or.inl hv
    exact (hu.2 this) h0
  cases h with
  | none =>
    cases g with
    | none => exact ⟨none, rfl, Holds.empty ..⟩
    | some g =>
      exact ⟨some ⟨none, g.fguard⟩, rfl, trivial, hg.fitF, by simp [trueSet, elemsOf],
        fun e he => ⟨(hg.f e he).1, fun h0 => (hg.f e he).2 (hu0 h0).1⟩⟩
  | some h =>
    obtain ⟨a, a1, a2, a3⟩ := intersect_mem cm g.trueSet h.tguard
    obtain ⟨b, b1, b2, b3⟩ := union_mem cm g.falseSet h.fguard hg.fitF
    refine ⟨some ⟨a, b⟩, ?_, a2, b2, ?_, ?_⟩
    · cases g <;> simp only [Guards.or_] <;> rw [a1, Option.bind_eq_bind, Option.bind_some, b1] <;> rfl
    · intro e he
      obtain ⟨h1, x, h2, h3⟩ := a3 e he
      refine ⟨(hg.t e h1).1, fun h0 => ?_⟩
      rcases hu.1 h0 with h0 | h0
      · exact (hg.t e h1).2 h0
      · exact hr e (hg.t e h1).1 x (hh.t x h2).1 h3 ((hh.t x h2).2 h0)
    · intro e he
      rcases b3 e he with he | he
      · exact ⟨(hg.f e he).1, fun h0 => (hg.f e he).2 (hu0 h0).1⟩
      · exact ⟨(hh.f e he).1, fun h0 => (hh.f e he).2 (hu0 h0).2⟩

end Guards

/-- What a node says about the value `v` of its expression. -/
structure GNode.Good (W : World) (R : List SRef) (x : GNode) (v : Int) : Prop where
  sref : ∀ s, x.sref = some s → s ∈ R ∧ v = W.ref s
  guards : Guards.Holds W R x.guards v

theorem GNode.Good.produce (cm : Nat → Nat → Bool) {W : World} {R : List SRef} {x : GNode} {v : Int}
    (h : x.Good W R v) : ∃ y, x.produce cm = some y ∧ Guards.Holds W R y.guards v := by
  obtain ⟨g, h1, h2⟩ := h.guards.addTrue cm x.sref
    (fun s hs => ⟨(h.sref s hs).1, fun h0 => by rw [← (h.sref s hs).2]; exact h0⟩)
  by_cases hp : x.isPtr = true
  · exact ⟨⟨none, x.isPtr, g⟩, by simp [GNode.produce, hp, h1], h2⟩
  · exact ⟨⟨none, x.isPtr, x.guards⟩, by simp [GNode.produce, hp], h.guards⟩

namespace GExpr

/-- The sets of the guards have the room that they say. -/
def Fit (g : Guards) : Prop := FitsO g.trueSet ∧ FitsO g.falseSet

theorem fit_copy (g : Guards) : Fit g.copy := Guards.copy_fit g

theorem fit_flip {g : Guards} (h : Fit g) : Fit g.flip := by
  cases g with
  | none => exact h
  | some g => exact ⟨h.2, h.1⟩

theorem fit_addTrue (cm : Nat → Nat → Bool) {g : Guards} (h : Fit g) (s : Option SRef) :
    ∃ g', Guards.addTrue cm g s = some g' ∧ Fit g' := by
  cases s with
  | none => exact ⟨g, rfl, h⟩
  | some x =>
    by_cases hm : Guards.meaningful x = true
    · obtain ⟨a, a1, _, a3⟩ := insert_spec cm g.trueSet x h.1
      exact ⟨some ⟨some a, g.falseSet⟩, by simp [Guards.addTrue, hm, a1], a3, h.2⟩
    · exact ⟨g, by simp [Guards.addTrue, hm], h⟩

theorem fit_addFalse (cm : Nat → Nat → Bool) {g : Guards} (h : Fit g) (s : Option SRef) :
    ∃ g', Guards.addFalse cm g s = some g' ∧ Fit g' := by
  cases s with
  | none => exact ⟨g, rfl, h⟩
  | some x =>
    by_cases hm : Guards.meaningful x = true
    · obtain ⟨a, a1, _, a3⟩ := insert_spec cm g.falseSet x h.2
      exact ⟨some ⟨g.trueSet, some a⟩, by simp [Guards.addFalse, hm, a1], h.1, a3⟩
    · exact ⟨g, by simp [Guards.addFalse, hm], h⟩

theorem fit_produce (cm : Nat → Nat → Bool) {x : GNode} (h : Fit x.guards) :
    ∃ y, x.produce cm = some y ∧ Fit y.guards := by
  by_cases hp : x.isPtr = true
  · obtain ⟨g, h1, h2⟩ := fit_addTrue cm h x.sref
    exact ⟨⟨none, x.isPtr, g⟩, by simp [GNode.produce, hp, h1], h2⟩
  · exact ⟨⟨none, x.isPtr, x.guards⟩, by simp [GNode.produce, hp], h⟩

theorem fit_and (cm : Nat → Nat → Bool) {g h : Guards} (hg : Fit g) :
    ∃ k, Guards.and_ cm g h = some k ∧ Fit k := by
  cases h with
  | none =>
    cases g with
    | none => exact ⟨none, rfl, trivial, trivial⟩
    | some g => exact ⟨some ⟨g.tguard, none⟩, rfl, hg.1, trivial⟩
  | some h =>
    obtain ⟨a, a1, a2, _⟩ := Guards.union_mem cm g.trueSet h.tguard hg.1
    obtain ⟨b, b1, b2, _⟩ := Guards.intersect_mem cm g.falseSet h.fguard
    refine ⟨some ⟨a, b⟩, ?_, a2, b2⟩
    cases g <;> simp only [Guards.and_] <;> rw [a1, Option.bind_eq_bind, Option.bind_some, b1] <;> rfl

theorem fit_or (cm : Nat → Nat → Bool) {g h : Guards} (hg : Fit g) :
    ∃ k, Guards.or_ cm g h = some k ∧ Fit k := by
  cases h with
  | none =>
    cases g with
    | none => exact ⟨none, rfl, trivial, trivial⟩
    | some g => exact ⟨some ⟨none, g.fguard⟩, rfl, trivial, hg.2⟩
  | some h =>
    obtain ⟨a, a1, a2, _⟩ := Guards.intersect_mem cm g.trueSet h.tguard
    obtain ⟨b, b1, b2, _⟩ := Guards.union_mem cm g.falseSet h.fguard hg.2
    refine ⟨some ⟨a, b⟩, ?_, a2, b2⟩
    cases g <;> simp only [Guards.or_] <;> rw [a1, Option.bind_eq_bind, Option.bind_some, b1] <;> rfl

/-- The code builds a node for every expression. -/
theorem node_exists (cm : Nat → Nat → Bool) (e : GExpr) : ∃ x, e.node cm = some x ∧ Fit x.guards := by
  induction e with
  | ref s p => exact ⟨_, rfl, trivial, trivial⟩
  | other n p => exact ⟨_, rfl, trivial, trivial⟩
  | paren e ih =>
    obtain ⟨x, h1, h2⟩ := ih
    exact ⟨⟨x.sref, x.isPtr, x.guards.copy⟩, by simp [node, h1], fit_copy _⟩
  | nullTest ne e ih =>
    obtain ⟨x, h1, h2⟩ := ih
    cases ne with
    | true =>
      obtain ⟨g, h3, h4⟩ := fit_addTrue cm h2 x.sref
      exact ⟨⟨none, false, g.copy⟩, by simp [node, h1, GNode.reflect, h3], fit_copy _⟩
    | false =>
      obtain ⟨g, h3, h4⟩ := fit_addFalse cm h2 x.sref
      exact ⟨⟨none, false, g.copy⟩, by simp [node, h1, GNode.reflect, h3], fit_copy _⟩
  | not_ e ih =>
    obtain ⟨x, h1, h2⟩ := ih
    by_cases hp : x.isPtr = true
    · obtain ⟨g, h3, h4⟩ := fit_addFalse cm (fit_flip (fit_copy x.guards)) x.sref
      exact ⟨⟨none, false, g⟩, by simp [node, h1, hp, h3], h4⟩
    · exact ⟨⟨none, false, x.guards.copy.flip⟩, by simp [node, h1, hp], fit_flip (fit_copy _)⟩
  | and_ a b iha ihb =>
    obtain ⟨x, h1, h2⟩ := iha
    obtain ⟨y, h3, h4⟩ := ihb
    obtain ⟨x', h5, h6⟩ := fit_produce cm h2
    obtain ⟨y', h7, h8⟩ := fit_produce cm h4
    obtain ⟨k, h9, h10⟩ := fit_and cm (h := y'.guards) (fit_copy x'.guards)
    exact ⟨⟨none, false, k⟩, by simp [node, h1, h3, h5, h7, h9], h10⟩
  | or_ a b iha ihb =>
    obtain ⟨x, h1, h2⟩ := iha
    obtain ⟨y, h3, h4⟩ := ihb
    obtain ⟨x', h5, h6⟩ := fit_produce cm h2
    obtain ⟨y', h7, h8⟩ := fit_produce cm h4
    obtain ⟨k, h9, h10⟩ := fit_or cm (h := y'.guards) (fit_copy x'.guards)
    exact ⟨⟨none, false, k⟩, by simp [node, h1, h3, h5, h7, h9], h10⟩
  | call w n e ih =>
    obtain ⟨x, h1, h2⟩ := ih
    cases w with
    | true =>
      obtain ⟨g, h3, h4⟩ := fit_addFalse cm (g := none) ⟨trivial, trivial⟩ x.sref
      exact ⟨⟨none, false, g⟩, by simp [node, h1, h3], h4⟩
    | false =>
      obtain ⟨g, h3, h4⟩ := fit_addTrue cm (g := none) ⟨trivial, trivial⟩ x.sref
      exact ⟨⟨none, false, g⟩, by simp [node, h1, h3], h4⟩
  | op n a b iha ihb =>
    obtain ⟨x, h1, h2⟩ := iha
    obtain ⟨y, h3, h4⟩ := ihb
    exact ⟨⟨none, false, x.guards.copy⟩, by simp [node, h1, h3], fit_copy _⟩
  | comma a b iha ihb =>
    obtain ⟨x, h1, h2⟩ := iha
    obtain ⟨y, h3, h4⟩ := ihb
    exact ⟨⟨y.sref, y.isPtr, x.guards.copy⟩, by simp [node, h1, h3], fit_copy _⟩
  | cond c a b ihc iha ihb =>
    obtain ⟨x, h1, h2⟩ := ihc
    obtain ⟨y, h3, h4⟩ := iha
    obtain ⟨z, h5, h6⟩ := ihb
    obtain ⟨x', h7, h8⟩ := fit_produce cm h2
    exact ⟨⟨y.sref, y.isPtr, x'.guards.copy⟩, by simp [node, h1, h3, h5, h7], fit_copy _⟩

/-- Operands have no guards, and their reference, if any, is their value. -/
theorem node_operand (cm : Nat → Nat → Bool) (W : World) (R : List SRef) (e : GExpr)
    (ho : e.isOperand = true) (hr : ∀ s ∈ e.refs, s ∈ R) :
    ∃ x, e.node cm = some x ∧ (∀ s, x.sref = some s → s ∈ R ∧ e.eval W = W.ref s) ∧
      elemsOf x.guards.trueSet = [] ∧ elemsOf x.guards.falseSet = [] := by
  induction e with
  | ref s p =>
    refine ⟨_, rfl, ?_, rfl, rfl⟩
    intro t ht
    cases ht
    exact ⟨hr _ (by simp [refs]), rfl⟩
  | other n p => exact ⟨_, rfl, by simp, rfl, rfl⟩
  | paren e ih =>
    obtain ⟨x, h1, h2, h3, h4⟩ := ih ho hr
    exact ⟨⟨x.sref, x.isPtr, x.guards.copy⟩, by simp [node, h1], h2, by rw [Guards.copy_true, h3],
      by rw [Guards.copy_false, h4]⟩
  | op n a b iha ihb =>
    obtain ⟨x, h1, h2, h3, h4⟩ := iha ho fun s hs => hr s (by simp [refs, hs])
    obtain ⟨y, h5, _⟩ := node_exists cm b
    exact ⟨⟨none, false, x.guards.copy⟩, by simp [node, h1, h5], by simp, by rw [Guards.copy_true, h3],
      by rw [Guards.copy_false, h4]⟩
  | comma a b iha ihb =>
    simp only [isOperand, Bool.and_eq_true] at ho
    obtain ⟨x, h1, h2, h3, h4⟩ := iha ho.1 fun s hs => hr s (by simp [refs, hs])
    obtain ⟨y, h5, h6, _⟩ := ihb ho.2 fun s hs => hr s (by simp [refs, hs])
    exact ⟨⟨y.sref, y.isPtr, x.guards.copy⟩, by simp [node, h1, h5], h6, by rw [Guards.copy_true, h3],
      by rw [Guards.copy_false, h4]⟩
  | _ => simp [isOperand] at ho

theorem operand_good (cm : Nat → Nat → Bool) (W : World) (R : List SRef) (e : GExpr)
    (ho : e.isOperand = true) (hr : ∀ s ∈ e.refs, s ∈ R) :
    ∃ x, e.node cm = some x ∧ x.Good W R (e.eval W) ∧ ∀ v, Guards.Holds W R x.guards v := by
  obtain ⟨x, h1, h2, h3, h4⟩ := node_operand cm W R e ho hr
  obtain ⟨y, h5, h6⟩ := node_exists cm e
  rw [h1, Option.some.injEq] at h5
  subst h5
  have : ∀ v, Guards.Holds W R x.guards v :=
    fun v => ⟨h6.1, h6.2, by rw [h3]; simp, by rw [h4]; simp⟩
  exact ⟨x, h1, ⟨h2, this _⟩, this⟩

/-- The guards of a condition hold. -/
theorem node_good (cm : Nat → Nat → Bool) (W : World) (hW : W.Obeys) (R : List SRef)
    (hR : Guards.Respects W R) (e : GExpr) (hc : e.isCond = true) (hr : ∀ s ∈ e.refs, s ∈ R) :
    ∃ x, e.node cm = some x ∧ x.Good W R (e.eval W) := by
  induction e with
  | ref s p => obtain ⟨x, h1, h2, _⟩ := operand_good cm W R (ref s p) rfl hr; exact ⟨x, h1, h2⟩
  | other s p => obtain ⟨x, h1, h2, _⟩ := operand_good cm W R (other s p) rfl hr; exact ⟨x, h1, h2⟩
  | op n a b => obtain ⟨x, h1, h2, _⟩ := operand_good cm W R (op n a b) hc hr; exact ⟨x, h1, h2⟩
  | comma a b => obtain ⟨x, h1, h2, _⟩ := operand_good cm W R (comma a b) hc hr; exact ⟨x, h1, h2⟩
  | cond c a b => simp [isCond, isOperand] at hc
  | paren e ih =>
    obtain ⟨x, h1, h2⟩ := ih hc hr
    exact ⟨⟨x.sref, x.isPtr, x.guards.copy⟩, by simp [node, h1], h2.sref, h2.guards.copy⟩
  | nullTest ne e ih =>
    obtain ⟨x, h1, h2, h3⟩ := operand_good cm W R e hc hr
    cases ne with
    | true =>
      obtain ⟨g, h4, h5⟩ := (h3 (eval W (nullTest true e))).addTrue cm x.sref (by
        intro s hs
        refine ⟨(h2.sref s hs).1, ?_⟩
        rw [← (h2.sref s hs).2]
        simp [eval])
      exact ⟨⟨none, false, g.copy⟩, by simp [node, h1, GNode.reflect, h4], by simp, h5.copy⟩
    | false =>
      obtain ⟨g, h4, h5⟩ := (h3 (eval W (nullTest false e))).addFalse cm x.sref (by
        intro s hs
        refine ⟨(h2.sref s hs).1, ?_⟩
        rw [← (h2.sref s hs).2]
        simp [eval])
      exact ⟨⟨none, false, g.copy⟩, by simp [node, h1, GNode.reflect, h4], by simp, h5.copy⟩
  | call w n e ih =>
    obtain ⟨x, h1, h2, h3⟩ := operand_good cm W R e hc hr
    cases w with
    | true =>
      obtain ⟨g, h4, h5⟩ := (Guards.Holds.empty W R (eval W (call true n e))).addFalse cm x.sref (by
        intro s hs
        refine ⟨(h2.sref s hs).1, ?_⟩
        rw [← (h2.sref s hs).2]
        intro h0 hv
        rw [eval, hv] at h0
        exact (hW n).1 h0)
      exact ⟨⟨none, false, g⟩, by simp [node, h1, h4], by simp, h5⟩
    | false =>
      obtain ⟨g, h4, h5⟩ := (Guards.Holds.empty W R (eval W (call false n e))).addTrue cm x.sref (by
        intro s hs
        refine ⟨(h2.sref s hs).1, ?_⟩
        rw [← (h2.sref s hs).2]
        intro h0 hv
        rw [eval, hv] at h0
        exact h0 (hW n).2)
      exact ⟨⟨none, false, g⟩, by simp [node, h1, h4], by simp, h5⟩
  | not_ e ih =>
    obtain ⟨x, h1, h2⟩ := ih hc hr
    have hf := h2.guards.copy.flip (w := eval W (not_ e)) (by simp [eval])
    by_cases hp : x.isPtr = true
    · obtain ⟨g, h3, h4⟩ := hf.addFalse cm x.sref (by
        intro s hs
        refine ⟨(h2.sref s hs).1, ?_⟩
        rw [← (h2.sref s hs).2]
        simp [eval])
      exact ⟨⟨none, false, g⟩, by simp [node, h1, hp, h3], by simp, h4⟩
    · exact ⟨⟨none, false, x.guards.copy.flip⟩, by simp [node, h1, hp], by simp, hf⟩
  | and_ a b iha ihb =>
    simp only [isCond, Bool.and_eq_true] at hc
    obtain ⟨x, h1, h2⟩ := iha hc.1 fun s hs => hr s (by simp [refs, hs])
    obtain ⟨y, h3, h4⟩ := ihb hc.2 fun s hs => hr s (by simp [refs, hs])
    obtain ⟨x', h5, h6⟩ := h2.produce cm
    obtain ⟨y', h7, h8⟩ := h4.produce cm
    obtain ⟨k, h9, h10⟩ := h6.copy.and_ cm hR h8 (u := eval W (and_ a b)) (by simp [eval])
    exact ⟨⟨none, false, k⟩, by simp [node, h1, h3, h5, h7, h9], by simp, h10⟩
  | or_ a b iha ihb =>
    simp only [isCond, Bool.and_eq_true] at hc
    obtain ⟨x, h1, h2⟩ := iha hc.1 fun s hs => hr s (by simp [refs, hs])
    obtain ⟨y, h3, h4⟩ := ihb hc.2 fun s hs => hr s (by simp [refs, hs])
    obtain ⟨x', h5, h6⟩ := h2.produce cm
    obtain ⟨y', h7, h8⟩ := h4.produce cm
    obtain ⟨k, h9, h10⟩ := h6.copy.or_ cm hR h8 (u := eval W (or_ a b)) (by
      simp only [eval, ne_eq]; split <;> simp_all)
    exact ⟨⟨none, false, k⟩, by simp [node, h1, h3, h5, h7, h9], by simp, h10⟩

end GExpr

/-! ## Paths without array elements -/

theorem similar_fieldPath {H : Nat → SRef} : ∀ (s t : SRef), FieldPath H s → FieldPath H t →
    (similar s t = true ↔ s.strip = t.strip) := by
  intro s
  induction s with
  | cvar a l i =>
    intro t hs ht
    have h := hs.1.1.eq ht.1.1
    have hp := ht.1.2.1
    cases t <;> simp only [isPath, Bool.false_eq_true] at hp <;> rw [similar.eq_def] <;>
      simp_all [strip, addr, SRef.ptrEq]
  | param a n =>
    intro t hs ht
    have h := hs.1.1.eq ht.1.1
    have hp := ht.1.2.1
    cases t <;> simp only [isPath, Bool.false_eq_true] at hp <;> rw [similar.eq_def] <;>
      simp_all [strip, addr, SRef.ptrEq]
  | fetch a r i ih => intro t hs; have := hs.2; simp [every, notFetch] at this
  | field a r f ih =>
    intro t hs ht
    have h := hs.1.1.eq ht.1.1
    have hp := ht.1.2.1
    have hs' : FieldPath H r := ⟨⟨hs.1.1.2, hs.1.2.1, by have := hs.1.2.2; simp [every, exact] at this; exact this⟩,
      by have := hs.2; simp [every, notFetch] at this; exact this⟩
    cases t with
    | field a' r' f' =>
      have ht' : FieldPath H r' := ⟨⟨ht.1.1.2, ht.1.2.1, by have := ht.1.2.2; simp [every, exact] at this; exact this⟩,
        by have := ht.2; simp [every, notFetch] at this; exact this⟩
      rw [similar.eq_def]
      by_cases ha : a = a'
      · have := h ha; cases this; simp [SRef.ptrEq]
      · simp [SRef.ptrEq, addr, ha, strip, ih r' hs' ht']
    | fetch a' r' i' => have := ht.2; simp [every, notFetch] at this
    | cvar | param | ptr =>
      rw [similar.eq_def]
      simp only [addr] at h
      simp only [strip, SRef.ptrEq, addr, beq_iff_eq]
      constructor
      · intro hh
        split at hh
        · next e => have := h e; cases this
        · cases hh
      · intro hh; cases hh
    | _ => simp [isPath] at hp
  | ptr a r ih =>
    intro t hs ht
    have h := hs.1.1.eq ht.1.1
    have hp := ht.1.2.1
    have hs' : FieldPath H r := ⟨⟨hs.1.1.2, hs.1.2.1, by have := hs.1.2.2; simp [every, exact] at this; exact this⟩,
      by have := hs.2; simp [every, notFetch] at this; exact this⟩
    cases t with
    | ptr a' r' =>
      have ht' : FieldPath H r' := ⟨⟨ht.1.1.2, ht.1.2.1, by have := ht.1.2.2; simp [every, exact] at this; exact this⟩,
        by have := ht.2; simp [every, notFetch] at this; exact this⟩
      rw [similar.eq_def]
      by_cases ha : a = a'
      · have := h ha; cases this; simp [SRef.ptrEq]
      · simp [SRef.ptrEq, addr, ha, strip, ih r' hs' ht']
    | fetch a' r' i' => have := ht.2; simp [every, notFetch] at this
    | cvar | param | field =>
      rw [similar.eq_def]
      simp only [addr] at h
      simp only [strip, SRef.ptrEq, addr, beq_iff_eq]
      constructor
      · intro hh
        split at hh
        · next e => have := h e; cases this
        · cases hh
      · intro hh; cases hh
    | _ => simp [isPath] at hp
  | _ => intro t hs; have := hs.1.2.1; simp [isPath] at this

theorem strip_twice (s : SRef) : s.strip.strip = s.strip := by
  induction s <;> simp_all [strip]

theorem value_strip (M : Reading) (ρ : SRef → Nat) (s : SRef) : s.strip.value M ρ = s.value M ρ := by
  induction s <;> simp_all [strip, value, strip_twice]

theorem fieldPath_respects {H : Nat → SRef} (W : World) (M : Reading) (ρ : SRef → Nat) (R : List SRef)
    (h : ∀ s ∈ R, FieldPath H s) : Guards.Respects (W.at M ρ) R := by
  intro s hs t ht hst hv
  have := (similar_fieldPath s t (h s hs) (h t ht)).1 hst
  simp only [World.at] at hv ⊢
  rwa [← value_strip M ρ s, this, value_strip]

open SetOp

/-- A set of paths without array elements. -/
def FSetOk (H : Nat → SRef) (s : Option SRefSet) : Prop :=
  SetOk H s ∧ ∀ e ∈ elemsOf s, FieldPath H e

theorem fset_none (H : Nat → SRef) : FSetOk H none := ⟨setOk_none H, by simp [elemsOf]⟩

theorem member_texts {H : Nat → SRef} {s : Option SRefSet} (hs : FSetOk H s) (x : SRef)
    (hx : FieldPath H x) : member (elemsOf s) x = true ↔ x.strip ∈ texts (elemsOf s) := by
  simp only [member, List.any_eq_true, texts]
  constructor
  · rintro ⟨e, he, h⟩; exact ⟨e, he, ((similar_fieldPath x e hx (hs.2 e he)).1 h).symm⟩
  · rintro ⟨e, he, h⟩; exact ⟨e, he, (similar_fieldPath x e hx (hs.2 e he)).2 h.symm⟩

theorem fset_insert (cm : Nat → Nat → Bool) {H : Nat → SRef} {s : Option SRefSet} (hs : FSetOk H s)
    (x : SRef) (hx : FieldPath H x) :
    ∃ s', insert cm s x = some s' ∧ FSetOk H (some s') ∧
      texts (elemsOf (some s')) = texts (elemsOf s) ∪ {x.strip} := by
  obtain ⟨s', h1, h2, h3⟩ := insert_spec cm s x hs.1.1
  have h4 := ins_path cm hs.1.2 hx.1
  have he : elemsOf (some s') = ins cm (elemsOf s) x := h2
  refine ⟨s', h1, ⟨⟨h3, by rw [he]; exact h4.1⟩, ?_⟩, by rw [he]; exact h4.2⟩
  intro e hm
  rw [he] at hm
  rcases Splint.mem_ins hm with hm | rfl
  · exact hs.2 e hm
  · exact hx

theorem fset_union (cm : Nat → Nat → Bool) {H : Nat → SRef} {s t : Option SRefSet} (hs : FSetOk H s)
    (ht : FSetOk H t) : ∃ u, SRefSet.union cm s t = some u ∧ FSetOk H u ∧
      texts (elemsOf u) = texts (elemsOf s) ∪ texts (elemsOf t) := by
  obtain ⟨u, h1, h2, h3⟩ := union_path cm s t hs.1 ht.1
  obtain ⟨u', h4, _, h5⟩ := Guards.union_mem cm s t hs.1.1
  rw [h1, Option.some.injEq] at h4
  subst h4
  exact ⟨u, h1, ⟨h2, fun e he => (h5 e he).elim (hs.2 e) (ht.2 e)⟩, h3⟩

theorem fset_intersect (cm : Nat → Nat → Bool) {H : Nat → SRef} {s t : Option SRefSet}
    (hs : FSetOk H s) (ht : FSetOk H t) : ∃ u, intersect cm s t = some u ∧ FSetOk H u ∧
      texts (elemsOf u) = texts (elemsOf s) ∩ texts (elemsOf t) := by
  obtain ⟨u, h1, h2, h3⟩ := insertAll_path cm ((elemsOf s).filter fun el => member (elemsOf t) el) none
    (setOk_none H) (fun e he => (hs.2 e (List.mem_filter.1 he).1).1)
  obtain ⟨u', h4, _, h5⟩ := Guards.intersect_mem cm s t
  have h6 : u' = u := by
    have : intersect cm s t = some u := h1
    rw [this, Option.some.injEq] at h4; exact h4.symm
  subst h6
  refine ⟨u', h1, ⟨h2, fun e he => hs.2 e (h5 e he).1⟩, ?_⟩
  rw [h3]
  ext x
  constructor
  · rintro (h | ⟨e, he, rfl⟩)
    · obtain ⟨e, he, _⟩ := h; simp [elemsOf] at he
    · rw [List.mem_filter] at he
      exact ⟨⟨e, he.1, rfl⟩, (member_texts ht e (hs.2 e he.1)).1 he.2⟩
  · rintro ⟨⟨e, he, rfl⟩, h⟩
    exact Or.inr ⟨e, List.mem_filter.2 ⟨he, (member_texts ht e (hs.2 e he)).2 h⟩, rfl⟩

theorem fset_copy {H : Nat → SRef} {s : Option SRefSet} (hs : FSetOk H s) : FSetOk H (newCopy s) := by
  refine ⟨(newCopy_path s hs.1).1, ?_⟩
  rw [newCopy_elems]; exact hs.2

/-- The guards are about paths without array elements, and their texts are `T` and `F`. -/
structure Guards.Are (H : Nat → SRef) (g : Guards) (T F : Set SRef) : Prop where
  okT : FSetOk H g.trueSet
  okF : FSetOk H g.falseSet
  t : texts (elemsOf g.trueSet) = T
  f : texts (elemsOf g.falseSet) = F

namespace Guards

theorem Are.empty (H : Nat → SRef) : Are H none ∅ ∅ :=
  ⟨fset_none H, fset_none H, texts_nil, texts_nil⟩

theorem Are.copy {H : Nat → SRef} {g : Guards} {T F : Set SRef} (h : Are H g T F) :
    Are H g.copy T F := by
  cases g with
  | none => exact h
  | some g =>
    exact ⟨fset_copy h.okT, fset_copy h.okF, by
      have := h.t; rw [← copy_true] at this; exact this, by
      have := h.f; rw [← copy_false] at this; exact this⟩

theorem Are.flip {H : Nat → SRef} {g : Guards} {T F : Set SRef} (h : Are H g T F) :
    Are H g.flip F T := by
  cases g with
  | none => exact ⟨h.okT, h.okF, h.f, h.t⟩
  | some g => exact ⟨h.okF, h.okT, h.f, h.t⟩

theorem Are.addTrue (cm : Nat → Nat → Bool) {H : Nat → SRef} {g : Guards} {T F : Set SRef}
    (h : Are H g T F) (s : SRef) (hs : FieldPath H s) :
    ∃ g', Guards.addTrue cm g (some s) = some g' ∧ Are H g' (T ∪ {s.strip}) F := by
  obtain ⟨x, h1, h2, h3⟩ := fset_insert cm h.okT s hs
  have hm : meaningful s = true := by
    have := hs.1.2.1; cases s <;> first | rfl | simp [isPath] at this
  exact ⟨some ⟨some x, g.falseSet⟩, by simp [Guards.addTrue, hm, h1], h2, h.okF, by
    have : texts (elemsOf (some x)) = T ∪ {s.strip} := by rw [h3, h.t]
    exact this, h.f⟩

theorem Are.addFalse (cm : Nat → Nat → Bool) {H : Nat → SRef} {g : Guards} {T F : Set SRef}
    (h : Are H g T F) (s : SRef) (hs : FieldPath H s) :
    ∃ g', Guards.addFalse cm g (some s) = some g' ∧ Are H g' T (F ∪ {s.strip}) := by
  obtain ⟨x, h1, h2, h3⟩ := fset_insert cm h.okF s hs
  have hm : meaningful s = true := by
    have := hs.1.2.1; cases s <;> first | rfl | simp [isPath] at this
  exact ⟨some ⟨g.trueSet, some x⟩, by simp [Guards.addFalse, hm, h1], h.okT, h2, h.t, by
    have : texts (elemsOf (some x)) = F ∪ {s.strip} := by rw [h3, h.f]
    exact this⟩

theorem Are.and_ (cm : Nat → Nat → Bool) {H : Nat → SRef} {g h : Guards} {T F T' F' : Set SRef}
    (hg : Are H g T F) (hh : Are H h T' F') :
    ∃ k, Guards.and_ cm g h = some k ∧ Are H k (T ∪ T') (F ∩ F') := by
  cases h with
  | none =>
    have e1 : T' = ∅ := by rw [← hh.t]; exact texts_nil
    have e2 : F' = ∅ := by rw [← hh.f]; exact texts_nil
    subst e1 e2
    rw [Set.union_empty, Set.inter_empty]
    cases g with
    | none =>
      have e1 : T = ∅ := by rw [← hg.t]; exact texts_nil
      subst e1
      exact ⟨none, rfl, Are.empty H⟩
    | some g => exact ⟨some ⟨g.tguard, none⟩, rfl, hg.okT, fset_none H, hg.t, texts_nil⟩
  | some h =>
    obtain ⟨a, a1, a2, a3⟩ := fset_union cm hg.okT hh.okT
    obtain ⟨b, b1, b2, b3⟩ := fset_intersect cm hg.okF hh.okF
    refine ⟨some ⟨a, b⟩, ?_, a2, b2, by rw [← hg.t, ← hh.t]; exact a3, by rw [← hg.f, ← hh.f]; exact b3⟩
    have a1 : SRefSet.union cm g.trueSet h.tguard = some a := a1
    have b1 : intersect cm g.falseSet h.fguard = some b := b1
    cases g <;> simp only [Guards.and_] <;> rw [a1, Option.bind_eq_bind, Option.bind_some, b1] <;> rfl

theorem Are.or_ (cm : Nat → Nat → Bool) {H : Nat → SRef} {g h : Guards} {T F T' F' : Set SRef}
    (hg : Are H g T F) (hh : Are H h T' F') :
    ∃ k, Guards.or_ cm g h = some k ∧ Are H k (T ∩ T') (F ∪ F') := by
  cases h with
  | none =>
    have e1 : T' = ∅ := by rw [← hh.t]; exact texts_nil
    have e2 : F' = ∅ := by rw [← hh.f]; exact texts_nil
    subst e1 e2
    rw [Set.union_empty, Set.inter_empty]
    cases g with
    | none =>
      have e1 : F = ∅ := by rw [← hg.f]; exact texts_nil
      subst e1
      exact ⟨none, rfl, Are.empty H⟩
    | some g => exact ⟨some ⟨none, g.fguard⟩, rfl, fset_none H, hg.okF, texts_nil, hg.f⟩
  | some h =>
    obtain ⟨a, a1, a2, a3⟩ := fset_intersect cm hg.okT hh.okT
    obtain ⟨b, b1, b2, b3⟩ := fset_union cm hg.okF hh.okF
    refine ⟨some ⟨a, b⟩, ?_, a2, b2, by rw [← hg.t, ← hh.t]; exact a3, by rw [← hg.f, ← hh.f]; exact b3⟩
    have a1 : intersect cm g.trueSet h.tguard = some a := a1
    have b1 : SRefSet.union cm g.falseSet h.fguard = some b := b1
    cases g <;> simp only [Guards.or_] <;> rw [a1, Option.bind_eq_bind, Option.bind_some, b1] <;> rfl

end Guards

namespace GExpr

/-- What is shown before the expression is used as a condition itself. -/
def inside (b : Bool) (e : GExpr) : Set SRef := if e.isPlain then ∅ else e.shows b

/-- What a pointer used as a condition shows. -/
def own (e : GExpr) : Set SRef := {x | ∃ s, e.lvalue = some (s, true) ∧ x = s.strip}

theorem plain_shows (e : GExpr) (h : e.isPlain = true) :
    e.shows true = e.own ∧ e.shows false = ∅ := by
  induction e with
  | ref s p =>
    constructor
    · ext x; simp [shows, own, lvalue]
    · ext x; simp [shows]
  | other n p => constructor <;> (ext x; simp [shows, own, lvalue])
  | paren e ih => exact ih h
  | _ => simp [isPlain] at h

theorem not_plain (e : GExpr) (h : e.isPlain = false) : e.own = ∅ := by
  induction e with
  | paren e ih => exact ih h
  | ref | other => simp [isPlain] at h
  | _ => ext x; simp [own, lvalue]

theorem shows_true (e : GExpr) : e.shows true = e.inside true ∪ e.own := by
  by_cases h : e.isPlain = true
  · rw [inside, if_pos h, Set.empty_union, (plain_shows e h).1]
  · rw [inside, if_neg h, not_plain e (by simpa using h), Set.union_empty]

theorem shows_false (e : GExpr) : e.shows false = e.inside false := by
  by_cases h : e.isPlain = true
  · rw [inside, if_pos h, (plain_shows e h).2]
  · rw [inside, if_neg h]

/-- What is known of the node of an expression. -/
structure Built (H : Nat → SRef) (e : GExpr) (x : GNode) : Prop where
  sref : x.sref = e.lvalue.map (·.1)
  isPtr : ∀ p, e.lvalue = some p → x.isPtr = p.2
  guards : x.guards.Are H (e.inside true) (e.inside false)

theorem own_none {e : GExpr} (h : e.lvalue = none) : e.own = ∅ := by
  ext x; simp [own, h]

theorem own_some {e : GExpr} {s : SRef} {p : Bool} (h : e.lvalue = some (s, p)) :
    e.own = if p then {s.strip} else ∅ := by
  ext x
  cases p <;> simp [own, h]

theorem lvalue_ref {e : GExpr} {p : SRef × Bool} (h : e.lvalue = some p) : p.1 ∈ e.refs := by
  induction e with
  | ref s q => simp only [lvalue, Option.some.injEq] at h; subst h; simp [refs]
  | paren e ih => exact ih h
  | _ => simp [lvalue] at h

theorem Built.produce (cm : Nat → Nat → Bool) {H : Nat → SRef} {e : GExpr} {x : GNode}
    (h : Built H e x) (hr : ∀ s ∈ e.refs, FieldPath H s) :
    ∃ y, x.produce cm = some y ∧ y.guards.Are H (e.shows true) (e.shows false) := by
  rw [shows_true, shows_false]
  have hs := h.sref
  cases hl : e.lvalue with
  | none =>
    rw [hl] at hs
    rw [own_none hl, Set.union_empty]
    exact ⟨⟨none, x.isPtr, x.guards⟩, by
      simp only [Option.map_none] at hs
      cases hp : x.isPtr <;> simp [GNode.produce, hp, hs, Guards.addTrue], h.guards⟩
  | some p =>
    obtain ⟨s, p⟩ := p
    rw [hl] at hs
    have hp : x.isPtr = p := h.isPtr _ hl
    rw [own_some hl]
    cases p with
    | false =>
      simp only [Bool.false_eq_true, if_false, Set.union_empty]
      exact ⟨⟨none, x.isPtr, x.guards⟩, by simp [GNode.produce, hp], h.guards⟩
    | true =>
      obtain ⟨g, h1, h2⟩ := h.guards.addTrue cm s (hr _ (lvalue_ref hl))
      exact ⟨⟨none, x.isPtr, g⟩, by simp [GNode.produce, hp, hs, h1], by simpa using h2⟩

theorem node_plain (cm : Nat → Nat → Bool) (H : Nat → SRef) (e : GExpr) (hp : e.isPlain = true) :
    ∃ x, e.node cm = some x ∧ Built H e x := by
  induction e with
  | ref s p =>
    refine ⟨_, rfl, rfl, ?_, ?_⟩
    · intro q hq; simp only [lvalue, Option.some.injEq] at hq; subst hq; rfl
    · simpa [inside, isPlain] using Guards.Are.empty H
  | other n p =>
    refine ⟨_, rfl, rfl, by simp [lvalue], ?_⟩
    simpa [inside, isPlain] using Guards.Are.empty H
  | paren e ih =>
    obtain ⟨x, h1, h2⟩ := ih hp
    exact ⟨⟨x.sref, x.isPtr, x.guards.copy⟩, by simp [node, h1], h2.sref, h2.isPtr, h2.guards.copy⟩
  | _ => simp [isPlain] at hp

/-- The guards of a test are what it shows. -/
theorem node_built (cm : Nat → Nat → Bool) (H : Nat → SRef) (e : GExpr) (ht : e.isTest = true)
    (hr : ∀ s ∈ e.refs, FieldPath H s) : ∃ x, e.node cm = some x ∧ Built H e x := by
  induction e with
  | ref s p => exact node_plain cm H _ rfl
  | other n p => exact node_plain cm H _ rfl
  | op | comma | cond => simp [isTest, isPlain] at ht
  | paren e ih =>
    obtain ⟨x, h1, h2⟩ := ih ht hr
    exact ⟨⟨x.sref, x.isPtr, x.guards.copy⟩, by simp [node, h1], h2.sref, h2.isPtr, h2.guards.copy⟩
  | nullTest ne e ih =>
    obtain ⟨x, h1, h2⟩ := node_plain cm H e ht
    have hg := h2.guards
    have ht : e.isPlain = true := ht
    simp only [inside, ht, if_true] at hg
    have hs := h2.sref
    cases hl : e.lvalue with
    | none =>
      rw [hl] at hs
      refine ⟨⟨none, false, x.guards.copy⟩, by
        simp only [Option.map_none] at hs
        cases ne <;> simp [node, h1, GNode.reflect, Guards.addTrue, Guards.addFalse, hs], rfl, by simp [lvalue], ?_⟩
      have e1 : ∀ b, inside b (nullTest ne e) = ∅ := by
        intro b; ext y; simp [inside, isPlain, shows, hl]
      rw [e1, e1]; exact hg.copy
    | some p =>
      rw [hl] at hs
      cases ne with
      | true =>
        obtain ⟨g, h3, h4⟩ := hg.addTrue cm p.1 (hr _ (lvalue_ref (e := e) hl))
        refine ⟨⟨none, false, g.copy⟩, by simp [node, h1, GNode.reflect, hs, h3], rfl, by simp [lvalue], ?_⟩
        have e1 : inside true (nullTest true e) = ∅ ∪ {p.1.strip} := by
          ext y; simp [inside, isPlain, shows, hl]
        have e2 : inside false (nullTest true e) = ∅ := by
          ext y; simp [inside, isPlain, shows]
        rw [e1, e2]; exact h4.copy
      | false =>
        obtain ⟨g, h3, h4⟩ := hg.addFalse cm p.1 (hr _ (lvalue_ref (e := e) hl))
        refine ⟨⟨none, false, g.copy⟩, by simp [node, h1, GNode.reflect, hs, h3], rfl, by simp [lvalue], ?_⟩
        have e1 : inside false (nullTest false e) = ∅ ∪ {p.1.strip} := by
          ext y; simp [inside, isPlain, shows, hl]
        have e2 : inside true (nullTest false e) = ∅ := by
          ext y; simp [inside, isPlain, shows]
        rw [e1, e2]; exact h4.copy
  | call w n e ih =>
    obtain ⟨x, h1, h2⟩ := node_plain cm H e ht
    have hs := h2.sref
    cases hl : e.lvalue with
    | none =>
      rw [hl] at hs
      refine ⟨⟨none, false, none⟩, by
        simp only [Option.map_none] at hs
        cases w <;> simp [node, h1, Guards.addTrue, Guards.addFalse, hs], rfl, by simp [lvalue], ?_⟩
      have e1 : ∀ b, inside b (call w n e) = ∅ := by
        intro b; ext y; simp [inside, isPlain, shows, hl]
      rw [e1, e1]; exact Guards.Are.empty H
    | some p =>
      rw [hl] at hs
      cases w with
      | true =>
        obtain ⟨g, h3, h4⟩ := (Guards.Are.empty H).addFalse cm p.1 (hr _ (lvalue_ref (e := e) hl))
        refine ⟨⟨none, false, g⟩, by simp [node, h1, hs, h3], rfl, by simp [lvalue], ?_⟩
        have e1 : inside false (call true n e) = ∅ ∪ {p.1.strip} := by
          ext y; simp [inside, isPlain, shows, hl]
        have e2 : inside true (call true n e) = ∅ := by
          ext y; simp [inside, isPlain, shows]
        rw [e1, e2]; exact h4
      | false =>
        obtain ⟨g, h3, h4⟩ := (Guards.Are.empty H).addTrue cm p.1 (hr _ (lvalue_ref (e := e) hl))
        refine ⟨⟨none, false, g⟩, by simp [node, h1, hs, h3], rfl, by simp [lvalue], ?_⟩
        have e1 : inside true (call false n e) = ∅ ∪ {p.1.strip} := by
          ext y; simp [inside, isPlain, shows, hl]
        have e2 : inside false (call false n e) = ∅ := by
          ext y; simp [inside, isPlain, shows]
        rw [e1, e2]; exact h4
  | not_ e ih =>
    obtain ⟨x, h1, h2⟩ := ih ht hr
    have hs := h2.sref
    have hg := h2.guards.copy.flip
    have e1 : inside true (not_ e) = e.inside false := by
      rw [← shows_false e]; rfl
    have e2 : inside false (not_ e) = e.inside true ∪ e.own := by
      rw [← shows_true e]; rfl
    cases hl : e.lvalue with
    | none =>
      rw [hl] at hs
      simp only [Option.map_none] at hs
      refine ⟨⟨none, false, x.guards.copy.flip⟩, by
        cases hp : x.isPtr <;> simp [node, h1, Guards.addFalse, hs, hp], rfl, by simp [lvalue], ?_⟩
      rw [e1, e2, own_none hl, Set.union_empty]; exact hg
    | some p =>
      obtain ⟨s, p⟩ := p
      rw [hl] at hs
      have hp : x.isPtr = p := h2.isPtr _ hl
      cases p with
      | false =>
        refine ⟨⟨none, false, x.guards.copy.flip⟩, by simp [node, h1, hp], rfl, by simp [lvalue], ?_⟩
        rw [e1, e2, own_some hl]; simpa using hg
      | true =>
        obtain ⟨g, h3, h4⟩ := hg.addFalse cm s (hr _ (lvalue_ref (e := e) hl))
        refine ⟨⟨none, false, g⟩, by simp [node, h1, hp, hs, h3], rfl, by simp [lvalue], ?_⟩
        rw [e1, e2, own_some hl]; simpa using h4
  | and_ a b iha ihb =>
    simp only [isTest, Bool.and_eq_true] at ht
    have ra : ∀ s ∈ a.refs, FieldPath H s := fun s hs => hr s (by simp [refs, hs])
    have rb : ∀ s ∈ b.refs, FieldPath H s := fun s hs => hr s (by simp [refs, hs])
    obtain ⟨x, h1, h2⟩ := iha ht.1 ra
    obtain ⟨y, h3, h4⟩ := ihb ht.2 rb
    obtain ⟨x', h5, h6⟩ := h2.produce cm ra
    obtain ⟨y', h7, h8⟩ := h4.produce cm rb
    obtain ⟨k, h9, h10⟩ := h6.copy.and_ cm h8
    refine ⟨⟨none, false, k⟩, by simp [node, h1, h3, h5, h7, h9], rfl, by simp [lvalue], ?_⟩
    simpa [inside, isPlain, shows] using h10
  | or_ a b iha ihb =>
    simp only [isTest, Bool.and_eq_true] at ht
    have ra : ∀ s ∈ a.refs, FieldPath H s := fun s hs => hr s (by simp [refs, hs])
    have rb : ∀ s ∈ b.refs, FieldPath H s := fun s hs => hr s (by simp [refs, hs])
    obtain ⟨x, h1, h2⟩ := iha ht.1 ra
    obtain ⟨y, h3, h4⟩ := ihb ht.2 rb
    obtain ⟨x', h5, h6⟩ := h2.produce cm ra
    obtain ⟨y', h7, h8⟩ := h4.produce cm rb
    obtain ⟨k, h9, h10⟩ := h6.copy.or_ cm h8
    refine ⟨⟨none, false, k⟩, by simp [node, h1, h3, h5, h7, h9], rfl, by simp [lvalue], ?_⟩
    simpa [inside, isPlain, shows] using h10

end GExpr
end Splint
