import Verif.Spec.TypeMatch
import Verif.Proofs.Prim
import Verif.Tactics
/-! Lemmas for C66 and C67. -/
namespace Splint.TypeMatch
open Prim (P) 
open Spec

variable {E : Env}

/-! ## Trees are unique -/

theorem has_unique {o : Obj} {s s' : Shape} (h : Has E o s) (h' : Has E o s') : s = s' := by
  induction h generalizing s' with
  | prim h => cases h' <;> simp_all
  | bool h => cases h' <;> simp_all
  | named h he hb =>
    cases h' with
    | hidden g ge gh => 
      obtain ⟨-, rfl⟩ : _ ∧ _ := by simpa [h] using g
      have := hb.1; have := gh.1; simp_all
    | known g ge gt gu =>
      obtain ⟨-, rfl⟩ : _ ∧ _ := by simpa [h] using g
      have := hb.1; have := gt.1; simp_all
    | named => rfl
    | _ => simp_all
  | hidden h he hh =>
    cases h' with
    | hidden g ge gh => simp_all
    | known g ge gt gu =>
      obtain ⟨-, rfl⟩ : _ ∧ _ := by simpa [h] using g
      obtain rfl : _ = _ := by simpa [he] using ge
      obtain ⟨-, gt⟩ := gt
      obtain ⟨-, h2, h3, -, h5⟩ := hh
      rw [h2, if_neg (by simp)] at gt
      have := (gt h3).2
      simp_all
    | named g ge gb =>
      obtain ⟨-, rfl⟩ : _ ∧ _ := by simpa [h] using g
      have := hh.1; have := gb.1; simp_all
    | _ => simp_all
  | known h he ht hu hne ih =>
    cases h' with
    | hidden g ge gh =>
      obtain ⟨-, rfl⟩ : _ ∧ _ := by simpa [h] using g
      obtain rfl : _ = _ := by simpa [he] using ge
      obtain ⟨-, gt⟩ := ht
      obtain ⟨-, h2, h3, -, h5⟩ := gh
      rw [h2, if_neg (by simp)] at gt
      have := (gt h3).2
      simp_all
    | known g ge gt gu =>
      obtain ⟨-, rfl⟩ : _ ∧ _ := by simpa [h] using g
      obtain rfl : _ = _ := by simpa [he] using ge
      exact ih gu
    | named g ge gb =>
      obtain ⟨-, rfl⟩ : _ ∧ _ := by simpa [h] using g
      have := ht.1; have := gb.1; simp_all
    | _ => simp_all
  | enum h => cases h' <;> simp_all
  | ptr h hx ih =>
    cases h' with
    | ptr g gx =>
      obtain rfl : _ = _ := by simpa [h] using g
      rw [ih gx]
    | _ => simp_all
  | arr h hx ih =>
    cases h' with
    | arr g gx =>
      obtain rfl : _ = _ := by simpa [h] using g
      rw [ih gx]
    | _ => simp_all
  | farr h hx ih =>
    cases h' with
    | farr g gx =>
      obtain rfl : _ = _ := by simpa [h] using g
      rw [ih gx]
    | _ => simp_all
  | fcn h hr hp ih1 ih2 =>
    cases h' with
    | fcn g gr gp =>
      obtain ⟨rfl, rfl⟩ : _ ∧ _ := by simpa [h] using g
      rw [ih1 gr, ih2 gp]
    | _ => simp_all
  | su h => cases h' <;> simp_all
  | elips => cases h'; rfl
  | nil => cases h'; rfl
  | cons hc hl ih1 ih2 =>
    cases h' with
    | cons gc gl => rw [ih1 gc, ih2 gl]

/-! ## Real types -/

/-- what the real type of a type is -/
inductive Head (E : Env) : Node → Shape → Prop where
  | prim (p) : Head E (.prim p) (.prim p)
  | bool : Head E .bool .bool
  | hidden {k t e c} (he : E.entry t = some e) (hh : hidden E t e) (hs : e.self = .ix c)
      (hn : E.node c = some (.ua k t)) : Head E (.ua k t) (.abs t)
  | enum (g) : Head E (.enum g) (.enum g)
  | ptr {x s} (h : Has E (.ty x) s) : Head E (.ptr x) (.ptr s)
  | arr {x s} (h : Has E (.ty x) s) : Head E (.arr x) (.arr s)
  | farr {x s} (h : Has E (.ty x) s) : Head E (.farr x) (.arr s)
  | fcn {r l s p} (hr : Has E (.ty r) s) (hp : Has E (.ps l) p) : Head E (.fcn r l) (.fcn s p)
  | su (u g f) : Head E (.su u g f) (.su u g)

theorem Head.defined {b : Node} {s : Shape} (h : Head E b s) : b ≠ .undefined ∧ b ≠ .unknown := by
  cases h <;> simp

/-- a type that has a tree, and no name -/
theorem has_head {n : Nat} {b : Node} {s : Shape} (h : Has E (.ty (.ix n)) s) (hn : E.node n = some b)
    (hb : b.tid = none) : Head E b s := by
  cases h with
  | prim g => obtain rfl : _ = _ := by simpa [hn] using g
              exact .prim _
  | bool g => obtain rfl : _ = _ := by simpa [hn] using g
              exact .bool
  | named g => obtain rfl : _ = _ := by simpa [hn] using g
               simp [Node.tid] at hb
  | hidden g => obtain rfl : _ = _ := by simpa [hn] using g
                simp [Node.tid] at hb
  | known g => obtain rfl : _ = _ := by simpa [hn] using g
               simp [Node.tid] at hb
  | enum g => obtain rfl : _ = _ := by simpa [hn] using g
              exact .enum _
  | ptr g hx => obtain rfl : _ = _ := by simpa [hn] using g
                exact .ptr hx
  | arr g hx => obtain rfl : _ = _ := by simpa [hn] using g
                exact .arr hx
  | farr g hx => obtain rfl : _ = _ := by simpa [hn] using g
                 exact .farr hx
  | fcn g hr hp => obtain rfl : _ = _ := by simpa [hn] using g
                   exact .fcn hr hp
  | su g => obtain rfl : _ = _ := by simpa [hn] using g
            exact .su _ _ _

theorem has_node {n : Nat} {s : Shape} (h : Has E (.ty (.ix n)) s) : ∃ b, E.node n = some b := by
  cases h <;> exact ⟨_, by assumption⟩

theorem has_ix {c : Ct} {s : Shape} (h : Has E (.ty c) s) (hs : s ≠ .elips) : ∃ n, c = .ix n := by
  cases h <;> first | exact ⟨_, rfl⟩ | exact absurd rfl hs

theorem isBoolType_some {t : Nat} {e : Entry} (h : E.entry t = some e) : isBoolType E t = e.isBool := by
  simp [isBoolType, h]

/-- The real type of a named type that is not the booleans. -/
theorem has_getReal (hE : Standard E) {o : Obj} {s : Shape} (h : Has E o s) (hs : s ≠ .elips) :
    ∀ n k t, o = .ty (.ix n) → E.node n = some (.ua k t) → isBoolType E t = false →
      ∃ r b N, (∀ m, N ≤ m → getRealType E m t = some (.ix r)) ∧ E.node r = some b ∧ Head E b s := by
  induction h with
  | hidden h he hh =>
    rename_i n0 k0 t0 e0
    intro n k t ho hn hb
    obtain rfl : n0 = n := by simpa using ho
    obtain ⟨rfl, rfl⟩ : _ ∧ _ := by simpa [hn] using h
    obtain ⟨h1, h2, h3, ⟨c, k', h4, h4'⟩, h5⟩ := id hh
    refine ⟨c, .ua k' t, 1, ?_, h4', .hidden he hh h4 h4'⟩
    intro m hm
    obtain ⟨m, rfl⟩ : ∃ m', m = m' + 1 := ⟨m - 1, by omega⟩
    simp [getRealType, he, h2, h3, h4, get, h4', Node.tid, hb, h5]
  | known h he ht hu hne ih =>
    rename_i n0 k0 t0 e s
    intro n k t ho hn hb
    obtain rfl : n0 = n := by simpa using ho
    obtain ⟨rfl, rfl⟩ : _ ∧ _ := by simpa [hn] using h
    have ih := ih hs
    obtain ⟨h1, h2⟩ := ht
    by_cases htag : e.tag = true
    · rw [if_pos htag] at h2
      obtain ⟨c, b, hc, hcb, htid, hund⟩ := h2
      rw [hc] at hu
      refine ⟨c, b, 1, ?_, hcb, has_head hu hcb htid⟩
      intro m hm
      obtain ⟨m, rfl⟩ : ∃ m', m = m' + 1 := ⟨m - 1, by omega⟩
      simp [getRealType, he, htag, hc]
    · rw [if_neg htag] at h2
      obtain ⟨c, hc⟩ := has_ix hu hs
      rw [hc] at hu ih
      obtain ⟨b, hcb⟩ := has_node hu
      -- what the function does
      have step : ∃ uid, (uid = none ∨ (uid = some t ∧ E.access t = true)) ∧
          ∀ m, getRealType E (m + 1) t = realFrom E (getRealType E m) t uid (.ix c) := by
        by_cases ha : e.abst = true
        · obtain ⟨⟨c', k', h4, h4'⟩, h5⟩ := h2 ha
          refine ⟨some t, .inr ⟨rfl, h5⟩, fun m => ?_⟩
          simp [getRealType, he, htag, ha, h4, get, h4', Node.tid, hb, h5, hc]
        · exact ⟨none, .inl rfl, fun m => by simp [getRealType, he, htag, ha, hc]⟩
      obtain ⟨uid, huid, step⟩ := step
      have fin : ∀ r b', (∀ m, realFrom E (getRealType E m) t uid (.ix c) = some (.ix r)) → E.node r = some b' →
          Head E b' s → ∃ r b N, (∀ m, N ≤ m → getRealType E m t = some (.ix r)) ∧ E.node r = some b ∧ Head E b s := by
        intro r b' h hr hh
        refine ⟨r, b', 1, fun m hm => ?_, hr, hh⟩
        obtain ⟨m, rfl⟩ : ∃ m', m = m' + 1 := ⟨m - 1, by omega⟩
        rw [step, h]
      by_cases h2 : c = 2
      · subst h2
        rw [hE.bool] at hcb
        obtain rfl : _ = _ := by simpa using hcb
        exact fin 2 .bool (fun m => by simp [realFrom, isManifestBool, Ct.bool]) hE.bool
          (has_head hu hE.bool rfl)
      have h0 : c ≠ 0 := by
        rintro rfl
        exact (has_head hu hE.unknown rfl).defined.2 rfl
      have hua : uaOf E (.ix c) = some b.tid := by
        simp [uaOf, Ct.unknown, h0, get, hcb]
      have hman : isManifestBool E (.ix c) = some (match b.tid with | some t => isBoolType E t | none => false) := by
        simp only [isManifestBool, hua, Ct.bool, Ct.ix.injEq, h2, if_false, Option.bind_some]
        cases b.tid <;> rfl
      cases htid : b.tid with
      | none =>
        rw [htid] at hua hman
        exact fin c b (fun m => by simp [realFrom, hman, hua]) hcb (has_head hu hcb htid)
      | some t' =>
        rw [htid] at hua hman
        obtain ⟨k', rfl⟩ : ∃ k', b = .ua k' t' := by
          cases b <;> simp [Node.tid] at htid
          exact ⟨_, by rw [htid]⟩
        cases hbt : isBoolType E t' with
        | true =>
          simp only [hbt] at hman
          have : s = .bool := by
            cases hu with
            | named => rfl
            | hidden g ge gh =>
              obtain ⟨-, rfl⟩ : _ ∧ _ := by simpa [hcb] using g
              have := gh.1
              rw [isBoolType_some ge] at hbt; simp_all
            | known g ge gt =>
              obtain ⟨-, rfl⟩ : _ ∧ _ := by simpa [hcb] using g
              have := gt.1
              rw [isBoolType_some ge] at hbt; simp_all
            | _ => simp_all
          subst this
          exact fin 2 .bool (fun m => by simp [realFrom, hman, Ct.bool]) hE.bool .bool
        | false =>
          simp only [hbt] at hman
          obtain ⟨r, b, N, ih1, ih2, ih3⟩ := ih c k' t' rfl hcb hbt
          by_cases hu1 : some t' = uid
          · rcases huid with rfl | ⟨rfl, hacc⟩
            · simp at hu1
            · obtain rfl : t' = t := by simpa using hu1
              have e1 := ih1 (N + 1) (by omega)
              rw [step] at e1
              simp only [realFrom, hman, hua, Option.bind_some] at e1
              simp at e1
              subst e1
              rw [hcb] at ih2
              obtain rfl : _ = _ := by simpa using ih2
              cases ih3 with
              | hidden _ hh => have := hh.2.2.2.2; simp_all
          · by_cases hu2 : t' = t
            · subst hu2
              have e1 := ih1 (N + 1) (by omega)
              rw [step] at e1
              simp only [realFrom, hman, hua, Option.bind_some] at e1
              simp [hu1, Ct.unknown] at e1
              subst e1
              rw [hE.unknown] at ih2
              obtain rfl : _ = _ := by simpa using ih2
              exact absurd rfl ih3.defined.2
            · refine ⟨r, b, N + 1, fun m hm => ?_, ih2, ih3⟩
              obtain ⟨m, rfl⟩ : ∃ m', m = m' + 1 := ⟨m - 1, by omega⟩
              rw [step]
              simp only [realFrom, hman, hua, Option.bind_some]
              simp [hu1, hu2, ih1 m (by omega)]
  | named h he hb =>
    intro n k t ho hn hbt
    rename_i n0 k0 t0 e0
    obtain rfl : n0 = n := by simpa using ho
    obtain ⟨rfl, rfl⟩ : _ ∧ _ := by simpa [hn] using h
    rw [isBoolType_some he] at hbt
    have := hb.1; simp_all
  | elips => exact absurd rfl hs
  | nil => intro n k t ho; cases ho
  | cons => intro n k t ho; cases ho
  | _ h => intro n k t ho hn; cases ho; rw [hn] at h; cases h

/-- the bool of a name -/
theorem has_bool {n : Nat} {k : UA} {t : Nat} {s : Shape} (h : Has E (.ty (.ix n)) s) (hn : E.node n = some (.ua k t))
    (hb : isBoolType E t = true) : s = .bool ∧ ∃ e, E.entry t = some e ∧ boolean E t e := by
  cases h with
  | named g ge gb =>
    obtain ⟨-, rfl⟩ : _ ∧ _ := by simpa [hn] using g
    exact ⟨rfl, _, ge, gb⟩
  | hidden g ge gh =>
    obtain ⟨-, rfl⟩ : _ ∧ _ := by simpa [hn] using g
    have := gh.1
    rw [isBoolType_some ge] at hb; simp_all
  | known g ge gt =>
    obtain ⟨-, rfl⟩ : _ ∧ _ := by simpa [hn] using g
    have := gt.1
    rw [isBoolType_some ge] at hb; simp_all
  | _ => simp_all

/-- `ctbase_realType` -/
theorem has_realNode (hE : Standard E) {n : Nat} {s : Shape} (h : Has E (.ty (.ix n)) s) (hs : s ≠ .elips) :
    ∃ a b N, E.node n = some a ∧ a ≠ .undefined ∧ (∀ m, N ≤ m → realNode E m a = some b) ∧ Head E b s := by
  obtain ⟨a, ha⟩ := has_node h
  cases htid : a.tid with
  | none =>
    have hh := has_head h ha htid
    refine ⟨a, a, 0, ha, hh.defined.1, fun m _ => ?_, hh⟩
    cases a <;> first | rfl | simp [Node.tid] at htid
  | some t =>
    obtain ⟨k, rfl⟩ : ∃ k, a = .ua k t := by
      cases a <;> simp [Node.tid] at htid
      exact ⟨_, by rw [htid]⟩
    cases hb : isBoolType E t with
    | true =>
      obtain ⟨rfl, -⟩ := has_bool h ha hb
      exact ⟨_, .bool, 0, ha, by simp, fun m _ => by simp [realNode, hb], .bool⟩
    | false =>
      obtain ⟨r, b, N, h1, h2, h3⟩ := has_getReal hE h hs n k t rfl ha hb
      refine ⟨_, b, N, ha, by simp, fun m hm => ?_, h3⟩
      simp [realNode, hb, h1 m hm, get, h2, h3.defined.1]

/-- the real type of a boolean -/
def plainBool (b : Node) : Prop := b = .bool ∨ (∃ p, b = .prim p) ∨ ∃ g, b = .enum g

theorem realFrom_bool (hE : Standard E) {c : Nat} {b : Node} (hc : E.node c = some b) (hb : plainBool b)
    (next : Nat → Option Ct) (t : Nat) (uid : Option Nat) :
    ∃ r b', realFrom E next t uid (.ix c) = some (.ix r) ∧ E.node r = some b' ∧ plainBool b' := by
  by_cases h2 : c = 2
  · subst h2
    exact ⟨2, .bool, by simp [realFrom, isManifestBool, Ct.bool], hE.bool, .inl rfl⟩
  have h0 : c ≠ 0 := by
    rintro rfl
    rw [hE.unknown] at hc
    obtain rfl : _ = _ := by simpa using hc
    rcases hb with h | ⟨_, h⟩ | ⟨_, h⟩ <;> cases h
  have htid : b.tid = none := by rcases hb with rfl | ⟨_, rfl⟩ | ⟨_, rfl⟩ <;> rfl
  have hua : uaOf E (.ix c) = some none := by simp [uaOf, Ct.unknown, h0, get, hc, htid]
  exact ⟨c, b, by simp [realFrom, isManifestBool, Ct.bool, h2, hua], hc, hb⟩

/-- `ctype_realType` -/
theorem has_realCt (hE : Standard E) {n : Nat} {s : Shape} (h : Has E (.ty (.ix n)) s) (hs : s ≠ .elips) :
    ∃ r b N, (∀ m, N ≤ m → realCt E m (.ix n) = some (.ix r)) ∧ E.node r = some b
      ∧ (Head E b s ∨ (s = .bool ∧ plainBool b)) := by
  -- the test for booleans at the end
  have last : ∀ r b, E.node r = some b → (Head E b s ∨ (s = .bool ∧ plainBool b)) →
      ∃ r' b', ((isManifestBool E (.ix r)).bind fun m => if m && E.accessBool then some Ct.int else some (.ix r))
          = some (.ix r') ∧ E.node r' = some b' ∧ (Head E b' s ∨ (s = .bool ∧ plainBool b')) := by
    intro r b hr hh
    by_cases h2 : r = 2
    · subst h2
      rw [hE.bool] at hr
      obtain rfl : _ = _ := by simpa using hr
      have hsb : s = .bool := by
        rcases hh with hh | hh
        · cases hh; rfl
        · exact hh.1
      cases E.accessBool with
      | true => exact ⟨5, _, by simp [isManifestBool, Ct.bool, Ct.int], hE.int, .inr ⟨hsb, .inr (.inl ⟨_, rfl⟩)⟩⟩
      | false => exact ⟨2, _, by simp [isManifestBool, Ct.bool], hE.bool, .inr ⟨hsb, .inl rfl⟩⟩
    · have h0 : r ≠ 0 := by
        rintro rfl
        rw [hE.unknown] at hr
        obtain rfl : _ = _ := by simpa using hr
        rcases hh with hh | ⟨_, hh | ⟨_, hh⟩ | ⟨_, hh⟩⟩
        · exact hh.defined.2 rfl
        all_goals cases hh
      have hua : uaOf E (.ix r) = some b.tid := by simp [uaOf, Ct.unknown, h0, get, hr]
      refine ⟨r, b, ?_, hr, hh⟩
      simp only [isManifestBool, Ct.bool, Ct.ix.injEq, h2, if_false, hua, Option.bind_some]
      cases htid : b.tid with
      | none => simp
      | some t =>
        have : isBoolType E t = false := by
          rcases hh with hh | ⟨_, hh | ⟨_, hh⟩ | ⟨_, hh⟩⟩
          · cases hh <;> simp [Node.tid] at htid
            rename_i t0 e0 c he hh hs hn
            subst htid
            rw [isBoolType_some he, hh.1]
          all_goals subst hh; simp [Node.tid] at htid
        simp [this]
  obtain ⟨a, ha⟩ := has_node h
  have h0 : n ≠ 0 := by
    rintro rfl
    exact (has_head h hE.unknown rfl).defined.2 rfl
  have hua : uaOf E (.ix n) = some a.tid := by simp [uaOf, Ct.unknown, h0, get, ha]
  cases htid : a.tid with
  | none =>
    obtain ⟨r', b', h1, h2, h3⟩ := last n a ha (.inl (has_head h ha htid))
    refine ⟨r', b', 0, fun m _ => ?_, h2, h3⟩
    simp only [realCt, hua, htid, reduceCtorEq, if_false, Option.bind_some]
    exact h1
  | some t =>
    obtain ⟨k, rfl⟩ : ∃ k, a = .ua k t := by
      cases a <;> simp [Node.tid] at htid
      exact ⟨_, by rw [htid]⟩
    have key : ∃ r b N, (∀ m, N ≤ m → getRealType E m t = some (.ix r)) ∧ E.node r = some b
        ∧ (Head E b s ∨ (s = .bool ∧ plainBool b)) := by
      cases hb : isBoolType E t with
      | false =>
        obtain ⟨r, b, N, h1, h2, h3⟩ := has_getReal hE h hs n k t rfl ha hb
        exact ⟨r, b, N, h1, h2, .inl h3⟩
      | true =>
        obtain ⟨rfl, e, he, hbo⟩ := has_bool h ha hb
        obtain ⟨b1, b2, b3, c, b, b4, b5, b6⟩ := hbo
        by_cases hab : e.abst = true
        · obtain ⟨c', k', b7, b8⟩ := b3 hab
          refine ⟨2, .bool, 1, fun m hm => ?_, hE.bool, .inl .bool⟩
          obtain ⟨m, rfl⟩ : ∃ m', m = m' + 1 := ⟨m - 1, by omega⟩
          simp [getRealType, he, b2, hab, b7, get, b8, Node.tid, hb, Ct.bool]
        · obtain ⟨r, b', g1, g2, g3⟩ := realFrom_bool hE b5 b6 (fun _ => none) t none
          refine ⟨r, b', 1, fun m hm => ?_, g2, .inr ⟨rfl, g3⟩⟩
          obtain ⟨m, rfl⟩ : ∃ m', m = m' + 1 := ⟨m - 1, by omega⟩
          obtain ⟨r2, b2', g4, g5, g6⟩ := realFrom_bool hE b5 b6 (getRealType E m) t none
          have : realFrom E (getRealType E m) t none (.ix c) = realFrom E (fun _ => none) t none (.ix c) := by
            have hc0 : c ≠ 0 := by
              rintro rfl
              rw [hE.unknown] at b5
              obtain rfl : _ = _ := by simpa using b5
              rcases b6 with h | ⟨_, h⟩ | ⟨_, h⟩ <;> cases h
            have htid : b.tid = none := by rcases b6 with rfl | ⟨_, rfl⟩ | ⟨_, rfl⟩ <;> rfl
            simp [realFrom, uaOf, Ct.unknown, hc0, get, b5, htid]
          simp [getRealType, he, b2, hab, b4, this, g1]
    obtain ⟨r, b, N, h1, h2, h3⟩ := key
    obtain ⟨r', b', g1, g2, g3⟩ := last r b h2 h3
    refine ⟨r', b', N, fun m hm => ?_, g2, g3⟩
    simp only [realCt, hua, htid, reduceCtorEq, if_false, Option.bind_some, h1 m hm]
    exact g1

/-! ## Pointers and functions -/

def isPtr : Shape → Bool
  | .ptr _ => true
  | _ => false

theorem proper_ne {s : Shape} (h : proper s) : s ≠ .elips := by
  rintro rfl
  simp [proper] at h

theorem isFunction_real (hE : Standard E) {n : Nat} {s : Shape} (h : Has E (.ty (.ix n)) s) (hp : proper s) :
    ∃ f N, (∀ m, N ≤ m → (realCt E m (.ix n)).bind (isFunction E) = some f) ∧ (f = true → callable s)
      ∧ (∀ r p, s = .fcn r p → f = true) := by
  obtain ⟨r, b, N, h1, h2, h3⟩ := has_realCt hE h (proper_ne hp)
  have h0 : r ≠ 0 := by
    rintro rfl
    rw [hE.unknown] at h2
    obtain rfl : _ = _ := by simpa using h2
    rcases h3 with hh | ⟨_, hh | ⟨_, hh⟩ | ⟨_, hh⟩⟩
    · exact hh.defined.2 rfl
    all_goals cases hh
  have key : ∃ f, isFunction E (.ix r) = some f ∧ (f = true → callable s) ∧ (∀ r p, s = .fcn r p → f = true) := by
    simp only [isFunction, Ct.unknown, Ct.ix.injEq, h0, reduceCtorEq, or_false, if_false, get, h2, Option.bind_some]
    rcases h3 with hh | ⟨rfl, hh | ⟨_, hh⟩ | ⟨_, hh⟩⟩
    · cases hh with
      | fcn => exact ⟨true, rfl, fun _ => trivial, fun _ _ _ => rfl⟩
      | ptr hx =>
        rename_i x s
        obtain ⟨nx, rfl⟩ := has_ix hx (proper_ne hp.2)
        obtain ⟨bx, hbx⟩ := has_node hx
        simp only [hbx, Option.bind_some]
        by_cases hf : ∃ r l, bx = .fcn r l
        · obtain ⟨r, l, rfl⟩ := hf
          have := has_head hx hbx rfl
          cases this
          exact ⟨true, rfl, fun _ => trivial, fun _ _ e => by cases e⟩
        · refine ⟨false, ?_, by simp, fun _ _ e => by cases e⟩
          cases bx <;> first | rfl | exact absurd ⟨_, _, rfl⟩ hf
      | _ => exact ⟨false, rfl, by simp, fun _ _ e => by cases e⟩
    all_goals subst hh; exact ⟨false, rfl, by simp, fun _ _ e => by cases e⟩
  obtain ⟨f, k1, k2, k3⟩ := key
  exact ⟨f, N, fun m hm => by rw [h1 m hm]; exact k1, k2, k3⟩

theorem isReal_ix {n : Nat} {s : Shape} (h : Has E (.ty (.ix n)) s) (test : Ct → Option Bool) (m : Nat) :
    isReal E test (m + 1) (.ix n) = (realCt E m (.ix n)).bind test := by
  obtain ⟨a, ha⟩ := has_node h
  simp only [isReal, get, ha, Option.bind_some]
  cases a <;> first | rfl | cases h <;> simp_all

theorem real_function (hE : Standard E) {n : Nat} {s : Shape} (h : Has E (.ty (.ix n)) s) (hp : proper s) :
    ∃ f N, (∀ m, N ≤ m → isReal E (isFunction E) m (.ix n) = some f) ∧ (f = true → callable s)
      ∧ (∀ r p, s = .fcn r p → f = true) := by
  obtain ⟨f, N, h1, h2, h3⟩ := isFunction_real hE h hp
  refine ⟨f, N + 1, fun m hm => ?_, h2, h3⟩
  obtain ⟨m, rfl⟩ : ∃ m', m = m' + 1 := ⟨m - 1, by omega⟩
  rw [isReal_ix h]
  exact h1 m (by omega)

theorem real_pointer (hE : Standard E) {n : Nat} {s : Shape} (h : Has E (.ty (.ix n)) s) (hp : proper s) :
    ∃ N, ∀ m, N ≤ m → isReal E (isPointer E) m (.ix n) = some (isPtr s) := by
  obtain ⟨r, b, N, h1, h2, h3⟩ := has_realCt hE h (proper_ne hp)
  refine ⟨N + 1, fun m hm => ?_⟩
  obtain ⟨m, rfl⟩ : ∃ m', m = m' + 1 := ⟨m - 1, by omega⟩
  rw [isReal_ix h, h1 m (by omega), Option.bind_some]
  simp only [isPointer, get, h2, Option.bind_some]
  rcases h3 with hh | ⟨rfl, hh | ⟨_, hh⟩ | ⟨_, hh⟩⟩
  · cases hh <;> rfl
  all_goals subst hh; rfl

/-! ## Normal forms -/

theorem norm_ptr {d : Bool} {s : Shape} (h : ∀ r p, s ≠ .fcn r p) : norm d (.ptr s) = .ptr (norm d s) := by
  cases s <;> first | rfl | exact absurd rfl (h _ _)

theorem norm_fcn {d : Bool} {s : Shape} (h : ¬ callable s) (r p : Shape) : norm d s ≠ .fcn r p := by
  cases s with
  | ptr s => 
    rw [norm_ptr (by rintro r p rfl; exact h trivial)]
    simp
  | arr s => cases d <;> simp [norm]
  | fcn => exact absurd trivial h
  | _ => simp [norm]

/-! ## Matching -/

/-- with enough calls, the answer is whether `p` -/
def Ans (f : Nat → Option Bool) (p : Prop) : Prop := ∃ b N, (∀ n, N ≤ n → f n = some b) ∧ (b = true ↔ p)

theorem Ans.of {f : Nat → Option Bool} {p q : Prop} (h : Ans f p) (e : p ↔ q) : Ans f q := by
  obtain ⟨b, N, h1, h2⟩ := h
  exact ⟨b, N, h1, h2.trans e⟩

theorem Ans.no {f : Nat → Option Bool} {p : Prop} (h : ∀ n, f n = some false) (hp : ¬ p) : Ans f p :=
  ⟨false, 0, fun n _ => h n, by simpa using hp⟩

theorem Ans.yes {f : Nat → Option Bool} {p : Prop} (h : ∀ n, f n = some true) (hp : p) : Ans f p :=
  ⟨true, 0, fun n _ => h n, by simpa using hp⟩

/-- what is proved by induction -/
def Good (E : Env) (s1 : Shape) : Prop :=
  ∀ c1 c2 s2 d deep, Has E (.ty c1) s1 → Has E (.ty c2) s2 → proper s1 → proper s2 →
    Ans (fun n => viaBase E (run E n) (.gen d deep) c1 c2) (norm d s1 = norm d s2)

/-- `ctype_genMatch` from `ctbase_genMatch` -/
theorem Good.ct {s1 s2 : Shape} (h : Good E s1) {c1 c2 : Ct} (d deep : Bool) (h1 : Has E (.ty c1) s1)
    (h2 : Has E (.ty c2) s2) (p1 : proper s1) (p2 : proper s2) :
    Ans (fun n => genCt E (run E n) d deep c1 c2) (norm d s1 = norm d s2) := by
  by_cases e : c1 = c2
  · subst e
    exact Ans.yes (fun n => by simp [genCt]) (by rw [has_unique h1 h2])
  · obtain ⟨b, N, g1, g2⟩ := h c1 c2 s2 d deep h1 h2 p1 p2
    refine ⟨b, N, fun n hn => ?_, g2⟩
    obtain ⟨n1, rfl⟩ := has_ix h1 (proper_ne p1)
    obtain ⟨n2, rfl⟩ := has_ix h2 (proper_ne p2)
    simp only [genCt, e, if_false, reduceCtorEq, or_self]
    exact g1 n hn

theorem norm_elips {d : Bool} {s : Shape} : norm d s = .elips ↔ s = .elips := by
  constructor
  · intro h
    cases s with
    | ptr s => cases s <;> simp [norm] at h
    | arr s => cases d <;> simp [norm] at h
    | _ => simp_all [norm]
  · rintro rfl; rfl

theorem has_elips {c : Ct} {s : Shape} (h : Has E (.ty c) s) : c = .elips ↔ s = .elips := by
  constructor
  · rintro rfl; cases h; rfl
  · intro e
    subst e
    generalize ho : Obj.ty c = o at h
    generalize hs : Shape.elips = s at h
    induction h generalizing c with
    | known h he ht hu hne ih => exact absurd (ih rfl hs) hne
    | elips => cases ho; rfl
    | _ => simp_all

/-- the same, of parameters -/
theorem good_param {s1 s2 : Shape} (h : proper s1 → Good E s1) {c1 c2 : Ct} (h1 : Has E (.ty c1) s1)
    (h2 : Has E (.ty c2) s2) (p1 : s1 = .elips ∨ proper s1) (p2 : s2 = .elips ∨ proper s2) :
    Ans (fun n => genCt E (run E n) false false c1 c2) (norm false s1 = norm false s2) := by
  rcases p1 with rfl | p1
  · obtain rfl := (has_elips h1).2 rfl
    by_cases e : c2 = .elips
    · subst e
      exact Ans.yes (fun n => by simp [genCt]) (by rw [has_unique h1 h2])
    · refine Ans.no (fun n => by simp [genCt, Ne.symm e]) (fun h => ?_)
      exact e ((has_elips h2).2 (norm_elips.1 h.symm))
  · rcases p2 with rfl | p2
    · obtain rfl := (has_elips h2).2 rfl
      have e : c1 ≠ .elips := fun e => proper_ne p1 ((has_elips h1).1 e)
      exact Ans.no (fun n => by simp [genCt, e]) (fun h => proper_ne p1 (norm_elips.1 h))
    · exact (h p1).ct false false h1 h2 p1 p2

theorem Ans.and {f g : Nat → Option Bool} {p q : Prop} (h1 : Ans f p) (h2 : Ans g q) :
    Ans (fun n => andM (f n) (g n)) (p ∧ q) := by
  obtain ⟨b, N, g1, g2⟩ := h1
  obtain ⟨b', N', g1', g2'⟩ := h2
  refine ⟨b && b', max N N', fun n hn => ?_, ?_⟩
  · beta_reduce
    rw [g1 n (by omega), g1' n (by omega)]
    cases b <;> cases b' <;> rfl
  · rw [← g2, ← g2']; simp

theorem has_length {l : List Ct} {p : Shape} (h : Has E (.ps l) p) : (l = [] ↔ p = .nil) := by
  cases h <;> simp

/-- lists of parameters -/
theorem good_params : ∀ (l1 l2 : List Ct) (p1 p2 : Shape), Has E (.ps l1) p1 → Has E (.ps l2) p2 →
    (p1 = .nil ∨ proper.properList p1) → (p2 = .nil ∨ proper.properList p2) →
    (∀ s, proper s → sizeOf s < sizeOf p1 → Good E s) →
    (l1.length ≠ l2.length → norm false p1 ≠ norm false p2) ∧
    (l1.length = l2.length → Ans (fun n => allParams E (run E n) l1 l2) (norm false p1 = norm false p2)) := by
  intro l1
  induction l1 with
  | nil =>
    intro l2 p1 p2 h1 h2 _ _ _
    cases h1
    cases h2 with
    | nil => exact ⟨by simp, fun _ => Ans.yes (fun n => rfl) rfl⟩
    | cons => exact ⟨by simp [norm], by simp⟩
  | cons c l1 ih =>
    intro l2 p1 p2 h1 h2 q1 q2 good
    cases h1 with
    | cons hc hl =>
      rename_i s p
      cases h2 with
      | nil => exact ⟨by simp [norm], by simp⟩
      | cons gc gl =>
        rename_i c' l' s' p'
        have q1 : proper.properList (.cons s p) := by rcases q1 with q | q <;> [cases q; exact q]
        have q2 : proper.properList (.cons s' p') := by rcases q2 with q | q <;> [cases q; exact q]
        simp only [proper.properList] at q1 q2
        have := ih l' p p' hl gl q1.2 q2.2 (fun s hs hlt => good s hs (by simp only [Shape.cons.sizeOf_spec]; omega))
        refine ⟨fun hn => ?_, fun hn => ?_⟩
        · have := this.1 (by simpa using hn)
          simp [norm, this]
        · have t2 := this.2 (by simpa using hn)
          have t1 := good_param (fun hs => good s hs (by simp only [Shape.cons.sizeOf_spec]; omega)) hc gc q1.1 q2.1
          exact (t1.and t2).of (by simp [norm])

theorem good_matchParams {l1 l2 : List Ct} {p1 p2 : Shape} (h1 : Has E (.ps l1) p1) (h2 : Has E (.ps l2) p2)
    (q1 : proper.properList p1) (q2 : proper.properList p2)
    (good : ∀ s, proper s → sizeOf s < sizeOf p1 → Good E s) :
    Ans (fun n => matchParams E (run E n) l1 l2) (norm false p1 = norm false p2) := by
  have n1 : l1 ≠ [] := by
    intro e
    rw [(has_length h1).1 e] at q1
    simp [proper.properList] at q1
  have n2 : l2 ≠ [] := by
    intro e
    rw [(has_length h2).1 e] at q2
    simp [proper.properList] at q2
  obtain ⟨g1, g2⟩ := good_params l1 l2 p1 p2 h1 h2 (.inr q1) (.inr q2) good
  by_cases e : l1.length = l2.length
  · have := g2 e
    simpa [matchParams, n1, n2, e] using this
  · exact Ans.no (fun n => by simp [matchParams, n1, n2, e]) (g1 e)

/-- functions -/
theorem good_fcn {r1 r2 : Ct} {l1 l2 : List Ct} {s1 s2 p1 p2 : Shape} (d : Bool) (hr1 : Has E (.ty r1) s1)
    (hp1 : Has E (.ps l1) p1) (hr2 : Has E (.ty r2) s2) (hp2 : Has E (.ps l2) p2)
    (q1 : proper (.fcn s1 p1)) (q2 : proper (.fcn s2 p2))
    (good : ∀ s, proper s → sizeOf s < sizeOf (Shape.fcn s1 p1) → Good E s) :
    Ans (fun n => fcnCase E (run E n) d r1 l1 r2 l2) (norm d (.fcn s1 p1) = norm d (.fcn s2 p2)) := by
  simp only [proper] at q1 q2
  have t1 := (good s1 q1.1 (by simp only [Shape.fcn.sizeOf_spec]; omega)).ct d true hr1 hr2 q1.1 q2.1
  have t2 := good_matchParams hp1 hp2 q1.2 q2.2 (fun s hs hlt => good s hs (by simp only [Shape.fcn.sizeOf_spec]; omega))
  exact (t1.and t2).of (by simp [norm])

/-- `case CT_PTR` -/
theorem good_ptr (hE : Standard E) {x y : Ct} {s1 s2 : Shape} (d : Bool) (h1 : Has E (.ty x) s1) (h2 : Has E (.ty y) s2)
    (v1 : s1 ≠ .prim .void) (v2 : s2 ≠ .prim .void) (p1 : proper s1) (p2 : proper s2) (good : Good E s1) :
    Ans (fun n => ptrCase E (run E n) n d x y) (norm d (.ptr s1) = norm d (.ptr s2)) := by
  have w1 : x ≠ .void := by rintro rfl; exact v1 (has_unique h1 (.prim hE.void))
  have w2 : y ≠ .void := by rintro rfl; exact v2 (has_unique h2 (.prim hE.void))
  obtain ⟨b, N, g1, g2⟩ := good.ct d true h1 h2 p1 p2
  obtain ⟨n1, rfl⟩ := has_ix h1 (proper_ne p1)
  obtain ⟨n2, rfl⟩ := has_ix h2 (proper_ne p2)
  obtain ⟨f1, M1, k1, k2, k3⟩ := real_function hE h1 p1
  obtain ⟨f2, M2, l1, l2, l3⟩ := real_function hE h2 p2
  obtain ⟨P1, m1⟩ := real_pointer hE h1 p1
  obtain ⟨P2, m2⟩ := real_pointer hE h2 p2
  have run : ∀ n, N ≤ n → M1 ≤ n → M2 ≤ n → P1 ≤ n → P2 ≤ n →
      ptrCase E (run E n) n d (.ix n1) (.ix n2) =
        some (if isPtr s1 ≠ isPtr s2 ∧ (f1 = true ∨ f2 = true) then false else b) := by
    intro n hN hM1 hM2 hP1 hP2
    simp only [ptrCase, w1, w2, or_self, if_false, m1 n hP1, m2 n hP2, Option.bind_some, k1 n hM1, l1 n hM2]
    by_cases e : isPtr s1 = isPtr s2
    · simp [e, g1 n hN]
    · cases f1 <;> cases f2 <;> simp [e, orM, g1 n hN]
  refine ⟨_, N + M1 + M2 + P1 + P2, fun n hn => run n (by omega) (by omega) (by omega) (by omega) (by omega), ?_⟩
  have nf : ∀ s : Shape, ¬ (∃ r p, s = .fcn r p) → norm d (.ptr s) = .ptr (norm d s) :=
    fun s h => norm_ptr (fun r p e => h ⟨r, p, e⟩)
  by_cases c1 : ∃ r p, s1 = .fcn r p <;> by_cases c2 : ∃ r p, s2 = .fcn r p
  · obtain ⟨r, p, rfl⟩ := c1
    obtain ⟨r', p', rfl⟩ := c2
    simp only [isPtr, ne_eq, not_true, false_and, if_false, g2]
    rfl
  · rw [nf s2 c2]
    obtain ⟨r, p, rfl⟩ := c1
    rw [k3 r p rfl]
    have : norm d (.ptr (.fcn r p)) ≠ .ptr (norm d s2) := by simp [norm]
    simp only [this, iff_false]
    by_cases e : isPtr (.fcn r p) = isPtr s2
    · have : ¬ callable s2 := by
        cases s2 <;> simp_all [callable, isPtr]
      have := norm_fcn (d := d) this (norm d r) (norm false p)
      simp only [e, ne_eq, not_true, false_and, if_false, g2]
      simp only [norm]
      exact fun h => this h.symm
    · simp [e]
  · rw [nf s1 c1]
    obtain ⟨r, p, rfl⟩ := c2
    rw [l3 r p rfl]
    have : Shape.ptr (norm d s1) ≠ norm d (.ptr (.fcn r p)) := by simp [norm]
    simp only [this, iff_false]
    by_cases e : isPtr s1 = isPtr (.fcn r p)
    · have : ¬ callable s1 := by
        cases s1 <;> simp_all [callable, isPtr]
      have := norm_fcn (d := d) this (norm d r) (norm false p)
      simp only [e, ne_eq, not_true, false_and, if_false, g2]
      simp only [norm]
      exact this
    · simp [e]
  · rw [nf s1 c1, nf s2 c2]
    simp only [Shape.ptr.injEq]
    by_cases e : isPtr s1 ≠ isPtr s2 ∧ (f1 = true ∨ f2 = true)
    · rw [if_pos e]
      simp only [Bool.false_eq_true, false_iff]
      intro he
      obtain ⟨e1, e2⟩ := e
      rcases e2 with e2 | e2
      · have k := k2 e2
        cases s1 with
        | ptr s =>
          cases s <;> simp only [callable] at k
          have : ¬ callable s2 := by
            cases s2 <;> simp_all [callable, isPtr]
          exact norm_fcn this _ _ he.symm
        | fcn => exact c1 ⟨_, _, rfl⟩
        | _ => simp [callable] at k
      · have k := l2 e2
        cases s2 with
        | ptr s =>
          cases s <;> simp only [callable] at k
          have : ¬ callable s1 := by
            cases s1 <;> simp_all [callable, isPtr]
          exact norm_fcn this _ _ he
        | fcn => exact c2 ⟨_, _, rfl⟩
        | _ => simp [callable] at k
    · rw [if_neg e]
      exact g2

/-- what is left of it -/
def fcnOf (b : Node) (k : Ct → List Ct → Option Bool) : Option Bool :=
  match b with
  | .fcn r ps => k r ps
  | _ => some false

/-- the pointer of a function is taken off -/
theorem good_strip (hE : Standard E) {x : Ct} {s : Shape} (h : Has E (.ty x) s) (hp : proper s)
    (k : Nat → Ct → List Ct → Option Bool) (p : Shape → Shape → Prop)
    (hk : ∀ r l sr sp, Has E (.ty r) sr → Has E (.ps l) sp → s = .fcn sr sp → Ans (fun n => k n r l) (p sr sp)) :
    Ans (fun n => stripCase E n x (k n)) (∃ sr sp, s = .fcn sr sp ∧ p sr sp) := by
  obtain ⟨n, rfl⟩ := has_ix h (proper_ne hp)
  obtain ⟨f, M, k1, k2, k3⟩ := isFunction_real hE h hp
  obtain ⟨a, b, N, a1, a2, a3, a4⟩ := has_realNode hE h (proper_ne hp)
  have run : ∀ m, M ≤ m → N ≤ m → stripCase E m (.ix n) (k m) =
      if f then fcnOf b (k m) else some false := by
    intro m hM hN
    have := k1 m hM
    obtain ⟨rx, hrx, hrx'⟩ := Option.bind_eq_some_iff.1 this
    simp only [stripCase, hrx, Option.bind_some, hrx', get, a1, a3 m hN]
    rfl
  by_cases hf : ∃ sr sp, s = .fcn sr sp
  · obtain ⟨sr, sp, rfl⟩ := hf
    rw [k3 sr sp rfl] at run
    cases a4 with
    | fcn hr hl =>
      obtain ⟨b, N', g1, g2⟩ := hk _ _ _ _ hr hl rfl
      refine ⟨b, M + N + N', fun m hm => ?_, ?_⟩
      · beta_reduce
        rw [run m (by omega) (by omega)]
        exact g1 m (by omega)
      · rw [g2]
        constructor
        · intro h; exact ⟨_, _, rfl, h⟩
        · rintro ⟨_, _, e, h⟩; cases e; exact h
  · refine ⟨false, M + N, fun m hm => ?_, ?_⟩
    · beta_reduce
      rw [run m (by omega) (by omega)]
      cases a4 <;> cases f <;> first | rfl | exact absurd ⟨_, _, rfl⟩ hf
    · simp only [Bool.false_eq_true, false_iff]
      rintro ⟨_, _, e, _⟩
      exact hf ⟨_, _, e⟩

theorem norm_ptr_cases (d : Bool) (s : Shape) :
    (∃ u, norm d (.ptr s) = .ptr u) ∨ ∃ r p, norm d (.ptr s) = .fcn r p := by
  by_cases h : ∃ r p, s = .fcn r p
  · obtain ⟨r, p, rfl⟩ := h
    exact .inr ⟨_, _, rfl⟩
  · exact .inl ⟨_, norm_ptr (fun r p e => h ⟨r, p, e⟩)⟩

/-- a fixed array -/
theorem good_fixed (hE : Standard E) {x y v fx : Ct} {s1 s2 : Shape} (d deep : Bool) (h1 : Has E (.ty x) s1)
    (h2 : Has E (.ty y) s2) (p1 : proper s1) (p2 : proper s2) (good : Good E s1)
    (hv : (v = x ∧ s1 ≠ .prim .void) ∨ (v = y ∧ s2 ≠ .prim .void)) :
    Ans (fun n => fixedCase E (run E n) n d deep v fx x y) (norm d s1 = norm d s2) := by
  have w : v ≠ .void := by
    rintro rfl
    rcases hv with ⟨rfl, hv⟩ | ⟨rfl, hv⟩
    · exact hv (has_unique h1 (.prim hE.void))
    · exact hv (has_unique h2 (.prim hE.void))
  simp only [fixedCase, w, if_false]
  exact good x y s2 d deep h1 h2 p1 p2

theorem isBoolIx_hidden (hf : strict E.fl) (hm : unmixed E) {t : Nat} {e : Entry} (he : E.entry t = some e)
    (hh : hidden E t e) : isBoolIx E t = some false := by
  obtain ⟨h2, b, hb, hu⟩ := hm t e he hh
  have : isManifestBool E (.ix t) = some false := by
    simp only [isManifestBool, Ct.bool, Ct.ix.injEq, h2, if_false, uaOf, get, hb]
    by_cases h0 : Ct.ix t = Ct.unknown
    · simp [h0]
    · simp only [h0, if_false, Option.bind_some]
      cases ht : b.tid with
      | none => rfl
      | some u =>
        simp only [isBoolType]
        cases hu' : E.entry u with
        | none => rfl
        | some eu => simp [hu u eu ht hu']
  simp [isBoolIx, this, hf.2.1]

theorem good_all (hE : Standard E) (hf : strict E.fl) (hm : unmixed E) :
    ∀ k s1, sizeOf s1 < k → Good E s1 := by
  intro k
  induction k with
  | zero => intro s1 h; omega
  | succ k ih =>
    intro s1 hk c1 c2 s2 d deep h1 h2 p1 p2
    obtain ⟨n1, rfl⟩ := has_ix h1 (proper_ne p1)
    obtain ⟨n2, rfl⟩ := has_ix h2 (proper_ne p2)
    obtain ⟨a1, b1, N1, e1, u1, r1, hd1⟩ := has_realNode hE h1 (proper_ne p1)
    obtain ⟨a2, b2, N2, e2, u2, r2, hd2⟩ := has_realNode hE h2 (proper_ne p2)
    have good : ∀ s, sizeOf s < sizeOf s1 → Good E s := fun s hs => ih s (by omega)
    suffices h : Ans (fun n => genReal E (run E n) n d deep b1 b2) (norm d s1 = norm d s2) by
      obtain ⟨b, N, g1, g2⟩ := h
      refine ⟨b, N + N1 + N2 + 1, fun n hn => ?_, g2⟩
      obtain ⟨n, rfl⟩ : ∃ n', n = n' + 1 := ⟨n - 1, by omega⟩
      simp only [viaBase, get, e1, e2, Option.bind_some, run, u1, u2, or_self, if_false, r1 n (by omega),
        r2 n (by omega)]
      exact g1 n (by omega)
    obtain ⟨f1, f2, f3, f4⟩ := hf
    clear h1 h2 r1 r2
    cases hd1 with
    | prim p =>
      cases hd2 with
      | prim q =>
        refine ⟨decide (p = q), 0, fun n _ => ?_, by simp [norm]⟩
        have := Prim.C65_none_aux deep p q
        simp only [genReal, f1]
        cases h : Prim.closeEnough {} deep p q <;> simp_all
      | bool => exact Ans.no (fun n => by simp [genReal, f2]) (by simp [norm])
      | hidden => exact Ans.no (fun n => by simp [genReal]) (by simp [norm])
      | enum => exact Ans.no (fun n => by simp [genReal, f3]) (by simp [norm])
      | ptr =>
        refine Ans.no (fun n => by simp [genReal]) ?_
        rcases norm_ptr_cases d _ with ⟨u, h⟩ | ⟨r, p, h⟩ <;> rw [h] <;> simp [norm]
      | arr => exact Ans.no (fun n => by simp [genReal]) (by cases d <;> simp [norm])
      | farr => exact Ans.no (fun n => by simp [genReal]) (by cases d <;> simp [norm])
      | fcn => exact Ans.no (fun n => by simp [genReal]) (by simp [norm])
      | su => exact Ans.no (fun n => by simp [genReal]) (by simp [norm])
    | bool =>
      cases hd2 with
      | prim q => exact Ans.no (fun n => by simp [genReal, f2]) (by simp [norm])
      | bool => exact Ans.yes (fun n => by simp [genReal]) (by simp [norm])
      | hidden he hh => 
        exact Ans.no (fun n => by simp [genReal, isBoolIx_hidden ⟨f1, f2, f3, f4⟩ hm he hh]) (by simp [norm])
      | enum => exact Ans.no (fun n => by simp [genReal]) (by simp [norm])
      | ptr =>
        refine Ans.no (fun n => by simp [genReal]) ?_
        rcases norm_ptr_cases d _ with ⟨u, h⟩ | ⟨r, p, h⟩ <;> rw [h] <;> simp [norm]
      | arr => exact Ans.no (fun n => by simp [genReal]) (by cases d <;> simp [norm])
      | farr => exact Ans.no (fun n => by simp [genReal]) (by cases d <;> simp [norm])
      | fcn => exact Ans.no (fun n => by simp [genReal]) (by simp [norm])
      | su => exact Ans.no (fun n => by simp [genReal]) (by simp [norm])
    | hidden he hh hs hn =>
      cases hd2 with
      | bool => 
        exact Ans.no (fun n => by simp [genReal, isBoolIx_hidden ⟨f1, f2, f3, f4⟩ hm he hh]) (by simp [norm])
      | hidden he' hh' hs' hn' =>
        rename_i k1 t1 e1 c1 k2 t2 e2 c2
        by_cases e : t1 = t2
        · subst e
          obtain rfl : e1 = e2 := by simpa [he] using he'
          obtain rfl : c1 = c2 := by simpa [hs] using hs'
          obtain rfl : k1 = k2 := by simpa [hn] using hn'
          exact Ans.yes (fun n => by simp [genReal]) rfl
        · exact Ans.no (fun n => by simp [genReal, e]) (by simp [norm, e])
      | ptr =>
        refine Ans.no (fun n => by simp [genReal, forwardCase, f4]) ?_
        rcases norm_ptr_cases d _ with ⟨u, h⟩ | ⟨r, p, h⟩ <;> rw [h] <;> simp [norm]
      | arr => exact Ans.no (fun n => by simp [genReal, forwardCase, f4]) (by cases d <;> simp [norm])
      | farr => exact Ans.no (fun n => by simp [genReal]) (by cases d <;> simp [norm])
      | _ => exact Ans.no (fun n => by simp [genReal]) (by simp [norm])
    | enum g =>
      cases hd2 with
      | prim q => exact Ans.no (fun n => by simp [genReal, f3]) (by simp [norm])
      | enum g' => exact ⟨decide (g = g'), 0, fun n _ => by simp [genReal], by simp [norm]⟩
      | ptr =>
        refine Ans.no (fun n => by simp [genReal]) ?_
        rcases norm_ptr_cases d _ with ⟨u, h⟩ | ⟨r, p, h⟩ <;> rw [h] <;> simp [norm]
      | arr => exact Ans.no (fun n => by simp [genReal]) (by cases d <;> simp [norm])
      | farr => exact Ans.no (fun n => by simp [genReal]) (by cases d <;> simp [norm])
      | _ => exact Ans.no (fun n => by simp [genReal]) (by simp [norm])
    | su u g f =>
      cases hd2 with
      | su u' g' f' =>
        obtain ⟨m, rfl⟩ := p1
        obtain ⟨m', rfl⟩ := p2
        refine ⟨decide (u = u' ∧ m = m'), 0, fun n _ => ?_, by simp [norm]⟩
        by_cases e : u = u' <;> simp [genReal, suCase, e]
      | ptr =>
        refine Ans.no (fun n => by simp [genReal]) ?_
        rcases norm_ptr_cases d _ with ⟨u, h⟩ | ⟨r, p, h⟩ <;> rw [h] <;> simp [norm]
      | arr => exact Ans.no (fun n => by simp [genReal]) (by cases d <;> simp [norm])
      | farr => exact Ans.no (fun n => by simp [genReal]) (by cases d <;> simp [norm])
      | _ => exact Ans.no (fun n => by simp [genReal]) (by simp [norm])
    | ptr hx =>
      rename_i x s
      obtain ⟨v1, q1⟩ := p1
      have gx : Good E s := good s (by simp only [Shape.ptr.sizeOf_spec]; omega)
      have hno : ∀ t : Shape, (∀ u, t ≠ .ptr u) → (∀ r p, t ≠ .fcn r p) → norm d (.ptr s) ≠ t := by
        intro t ht1 ht2 h
        rcases norm_ptr_cases d s with ⟨u, h'⟩ | ⟨r, p, h'⟩
        · exact ht1 u (h.symm.trans h')
        · exact ht2 r p (h.symm.trans h')
      cases hd2 with
      | ptr hy =>
        obtain ⟨v2, q2⟩ := p2
        simp only [genReal]
        exact good_ptr hE d hx hy v1 v2 q1 q2 gx
      | arr hy =>
        rename_i y s'
        obtain ⟨v2, c2, q2⟩ := p2
        simp only [genReal]
        cases d with
        | true => exact Ans.no (fun n => by simp) (by
            have := hno (.arr (norm true s')) (by simp) (by simp)
            simpa [norm] using this)
        | false =>
          refine (good_ptr hE false hx hy v1 v2 q1 q2 gx).of ?_
          rw [norm_ptr (s := s') (by rintro r p rfl; exact c2 trivial)]
          simp [norm]
      | farr hy =>
        rename_i y s'
        obtain ⟨v2, c2, q2⟩ := p2
        simp only [genReal]
        cases d with
        | true => exact Ans.no (fun n => by simp) (by
            have := hno (.arr (norm true s')) (by simp) (by simp)
            simpa [norm] using this)
        | false =>
          refine (good_fixed hE false deep hx hy q1 q2 gx (.inl ⟨rfl, v1⟩)).of ?_
          have : norm false (.arr s') = .ptr (norm false s') := by simp [norm]
          rw [this]
          by_cases hs : ∃ r p, s = .fcn r p
          · obtain ⟨r, p, rfl⟩ := hs
            have := norm_fcn (d := false) c2 (norm false r) (norm false p)
            simp only [norm]
            constructor
            · intro h; exact absurd h.symm this
            · intro h; cases h
          · rw [norm_ptr (fun r p e => hs ⟨r, p, e⟩)]
            simp
      | fcn hr hl =>
        rename_i r l sr sl
        simp only [genReal]
        refine (good_strip hE hx q1 (fun n r1 p1 => fcnCase E (run E n) d r1 p1 r l)
          (fun sr' sl' => norm d (.fcn sr' sl') = norm d (.fcn sr sl)) ?_).of ?_
        · rintro r' l' sr' sl' hr' hl' rfl
          exact good_fcn d hr' hl' hr hl q1 p2
            (fun s hs hlt => good s (by simp only [Shape.ptr.sizeOf_spec]; omega))
        · constructor
          · rintro ⟨sr', sl', rfl, h⟩
            exact h
          · intro h
            by_cases hs : ∃ r p, s = .fcn r p
            · obtain ⟨r, p, rfl⟩ := hs
              exact ⟨r, p, rfl, h⟩
            · rw [norm_ptr (fun r p e => hs ⟨r, p, e⟩)] at h
              simp [norm] at h
      | hidden => exact Ans.no (fun n => by simp [genReal, forwardCase, f4]) (hno _ (by simp [norm]) (by simp [norm]))
      | _ => exact Ans.no (fun n => by simp [genReal]) (hno _ (by simp [norm]) (by simp [norm]))
    | arr hx =>
      rename_i x s
      obtain ⟨v1, c1, q1⟩ := p1
      have gx : Good E s := good s (by simp only [Shape.arr.sizeOf_spec]; omega)
      have w1 : x ≠ .void := by rintro rfl; exact v1 (has_unique hx (.prim hE.void))
      cases hd2 with
      | arr hy =>
        rename_i y s'
        obtain ⟨v2, c2, q2⟩ := p2
        have w2 : y ≠ .void := by rintro rfl; exact v2 (has_unique hy (.prim hE.void))
        simp only [genReal, arrCase, w1, w2, or_self, if_false]
        exact (gx.ct d true hx hy q1 q2).of (by cases d <;> simp [norm])
      | farr hy =>
        obtain ⟨v2, c2, q2⟩ := p2
        simp only [genReal]
        exact (good_fixed hE d deep hx hy q1 q2 gx (.inl ⟨rfl, v1⟩)).of (by cases d <;> simp [norm])
      | ptr hy =>
        rename_i y s'
        obtain ⟨v2, q2⟩ := p2
        have w2 : y ≠ .void := by rintro rfl; exact v2 (has_unique hy (.prim hE.void))
        cases d with
        | true =>
          refine Ans.no (fun n => by simp [genReal]) ?_
          rcases norm_ptr_cases true s' with ⟨u, h⟩ | ⟨r, p, h⟩ <;> rw [h] <;> simp [norm]
        | false =>
          simp only [genReal, Bool.false_eq_true, if_false, arrCase, w1, w2, or_self]
          refine (gx.ct false true hx hy q1 q2).of ?_
          have : norm false (.arr s) = .ptr (norm false s) := by simp [norm]
          rw [this]
          by_cases hs : ∃ r p, s' = .fcn r p
          · obtain ⟨r, p, rfl⟩ := hs
            have := norm_fcn (d := false) c1 (norm false r) (norm false p)
            simp only [norm]
            constructor
            · intro h; exact absurd h this
            · intro h; cases h
          · rw [norm_ptr (fun r p e => hs ⟨r, p, e⟩)]
            simp
      | hidden => exact Ans.no (fun n => by simp [genReal, forwardCase, f4]) (by cases d <;> simp [norm])
      | _ => exact Ans.no (fun n => by simp [genReal]) (by cases d <;> simp [norm])
    | farr hx =>
      rename_i x s
      obtain ⟨v1, c1, q1⟩ := p1
      have gx : Good E s := good s (by simp only [Shape.arr.sizeOf_spec]; omega)
      have w1 : x ≠ .void := by rintro rfl; exact v1 (has_unique hx (.prim hE.void))
      cases hd2 with
      | arr hy =>
        obtain ⟨v2, c2, q2⟩ := p2
        simp only [genReal]
        exact (good_fixed hE d deep hx hy q1 q2 gx (.inr ⟨rfl, v2⟩)).of (by cases d <;> simp [norm])
      | farr hy =>
        rename_i y s'
        obtain ⟨v2, c2, q2⟩ := p2
        have w2 : y ≠ .void := by rintro rfl; exact v2 (has_unique hy (.prim hE.void))
        simp only [genReal, w1, w2, or_self, if_false]
        exact (gx.ct d deep hx hy q1 q2).of (by cases d <;> simp [norm])
      | ptr hy =>
        rename_i y s'
        obtain ⟨v2, q2⟩ := p2
        cases d with
        | true =>
          refine Ans.no (fun n => by simp [genReal]) ?_
          rcases norm_ptr_cases true s' with ⟨u, h⟩ | ⟨r, p, h⟩ <;> rw [h] <;> simp [norm]
        | false =>
          simp only [genReal, Bool.false_eq_true, if_false]
          refine (good_fixed hE false deep hx hy q1 q2 gx (.inr ⟨rfl, v2⟩)).of ?_
          have : norm false (.arr s) = .ptr (norm false s) := by simp [norm]
          rw [this]
          by_cases hs : ∃ r p, s' = .fcn r p
          · obtain ⟨r, p, rfl⟩ := hs
            have := norm_fcn (d := false) c1 (norm false r) (norm false p)
            simp only [norm]
            constructor
            · intro h; exact absurd h this
            · intro h; cases h
          · rw [norm_ptr (fun r p e => hs ⟨r, p, e⟩)]
            simp
      | _ => exact Ans.no (fun n => by simp [genReal]) (by cases d <;> simp [norm])
    | fcn hr hl =>
      rename_i r l sr sl
      cases hd2 with
      | fcn hr' hl' =>
        simp only [genReal]
        exact good_fcn d hr hl hr' hl' p1 p2 (fun s hs hlt => good s hlt)
      | ptr hx =>
        rename_i x s
        obtain ⟨v2, q2⟩ := p2
        simp only [genReal]
        refine (good_strip hE hx q2 (fun n r2 p2 => fcnCase E (run E n) d r l r2 p2)
          (fun sr' sl' => norm d (.fcn sr sl) = norm d (.fcn sr' sl')) ?_).of ?_
        · rintro r' l' sr' sl' hr' hl' rfl
          exact good_fcn d hr hl hr' hl' p1 q2 (fun s hs hlt => good s hlt)
        · constructor
          · rintro ⟨sr', sl', rfl, h⟩
            exact h
          · intro h
            by_cases hs : ∃ r p, s = .fcn r p
            · obtain ⟨r, p, rfl⟩ := hs
              exact ⟨r, p, rfl, h⟩
            · rw [norm_ptr (fun r p e => hs ⟨r, p, e⟩)] at h
              simp [norm] at h
      | arr => exact Ans.no (fun n => by simp [genReal]) (by cases d <;> simp [norm])
      | farr => exact Ans.no (fun n => by simp [genReal]) (by cases d <;> simp [norm])
      | _ => exact Ans.no (fun n => by simp [genReal]) (by simp [norm])

/-! ## Representations -/

section outside
variable {ent : Nat → Option Entry}

/-- the same environment, with another symbol table -/
abbrev other (E : Env) (ent : Nat → Option Entry) : Env := { E with entry := ent }

/-- the tables differ only in the representations of hidden types -/
def Outside (E : Env) (ent : Nat → Option Entry) : Prop :=
  ∀ t, ent t = E.entry t ∨ ∃ e u, E.entry t = some e ∧ ent t = some { e with utype := u } ∧ hidden E t e

variable (h : Outside E ent)
include h

theorem isBoolType_other : isBoolType (other E ent) = isBoolType E := by
  funext t
  simp only [isBoolType]
  rcases h t with e | ⟨e, u, h1, h2, -⟩
  · rw [e]
  · rw [h1, h2]

omit h in
theorem get_other : get (other E ent) = get E := by
  funext c
  cases c <;> rfl

omit h in
theorem uaOf_other : uaOf (other E ent) = uaOf E := by
  funext c
  simp only [uaOf, get_other]

theorem isManifestBool_other : isManifestBool (other E ent) = isManifestBool E := by
  funext c
  simp only [isManifestBool, uaOf_other, isBoolType_other h]

theorem getRealType_other (n t : Nat) : getRealType (other E ent) n t = getRealType E n t := by
  induction n generalizing t with
  | zero => rfl
  | succ n ih =>
    have ih : getRealType (other E ent) n = getRealType E n := funext ih
    have hf : realFrom (other E ent) = realFrom E := by
      funext next t uid ct
      simp only [realFrom, isManifestBool_other h, uaOf_other]
    simp only [getRealType, get_other, isBoolType_other h, ih, hf]
    rcases h t with e | ⟨e, u, h1, h2, h3⟩
    · rw [e]
    · obtain ⟨g1, g2, g3, ⟨c, k, g4, g5⟩, g6⟩ := h3
      rw [h1, h2]
      simp [g2, g3, g4, get, g5, Node.tid, isBoolType, h1, g1, g6]

theorem realNode_other : realNode (other E ent) = realNode E := by
  funext n b
  cases b <;> simp only [realNode, isBoolType_other h, getRealType_other h, get_other]

theorem realCt_other : realCt (other E ent) = realCt E := by
  funext n c
  simp only [realCt, uaOf_other, isManifestBool_other h]
  have : getRealType (other E ent) n = getRealType E n := funext (getRealType_other h n)
  simp only [this]

omit h in
theorem isFunction_other : isFunction (other E ent) = isFunction E := by
  funext c
  simp only [isFunction, get_other]

omit h in
theorem isPointer_other : isPointer (other E ent) = isPointer E := by
  funext c
  cases c <;> simp only [isPointer, get_other]

omit h in
theorem isAbstract_other (n : Nat) : isAbstract (other E ent) n = isAbstract E n := by
  induction n with
  | zero => rfl
  | succ n ih => funext c; simp only [isAbstract, get_other, ih]

theorem isRealAbstract_other (n : Nat) : isRealAbstract (other E ent) n = isRealAbstract E n := by
  induction n with
  | zero => rfl
  | succ n ih =>
    funext c
    simp only [isRealAbstract, get_other, ih, realCt_other h, isAbstract_other]

theorem isReal_other (test : Ct → Option Bool) (n : Nat) : isReal (other E ent) test n = isReal E test n := by
  induction n with
  | zero => rfl
  | succ n ih => funext c; cases c <;> simp only [isReal, get_other, ih, realCt_other h]

theorem voidCase_other : voidCase (other E ent) = voidCase E := by
  funext n x y
  simp only [voidCase, isRealAbstract_other h]

omit h in
theorem genCt_other : genCt (other E ent) = genCt E := by
  funext rec d deep x y
  simp only [genCt, viaBase, get_other]

omit h in
theorem almostCt_other : almostCt (other E ent) = almostCt E := by
  funext rec x y
  simp only [almostCt, viaBase, get_other]

omit h in
theorem matchParams_other : matchParams (other E ent) = matchParams E := by
  have : ∀ rec l1 l2, allParams (other E ent) rec l1 l2 = allParams E rec l1 l2 := by
    intro rec l1
    induction l1 with
    | nil => intro l2; rfl
    | cons c l1 ih => intro l2; cases l2 <;> simp only [allParams, genCt_other, ih]
  funext rec p1 p2
  simp only [matchParams, this]

omit h in
theorem matchFields_other : matchFields (other E ent) = matchFields E := by
  have : ∀ rec l1 l2, allFields (other E ent) rec l1 l2 = allFields E rec l1 l2 := by
    intro rec l1
    induction l1 with
    | nil => intro l2; rfl
    | cons c l1 ih => intro l2; cases l2 <;> simp only [allFields, almostCt_other, ih]
  funext rec p1 p2
  simp only [matchFields, this]

theorem isBoolIx_other : isBoolIx (other E ent) = isBoolIx E := by
  funext n
  simp only [isBoolIx, isManifestBool_other h, isInt]

theorem stripCase_other : stripCase (other E ent) = stripCase E := by
  funext n x k
  simp only [stripCase, realCt_other h, isFunction_other, get_other, realNode_other h]

theorem ptrCase_other : ptrCase (other E ent) = ptrCase E := by
  funext rec n d x y
  simp only [ptrCase, realCt_other h, isFunction_other, isPointer_other, isReal_other h, voidCase_other h, genCt_other]

theorem genReal_other (hf : E.fl.forwardDecl = false) : genReal (other E ent) = genReal E := by
  funext rec n d deep a b
  have fw : ∀ t c, forwardCase (other E ent) n t c = some false := by
    intro t c; simp [forwardCase, hf]
  have fw' : ∀ t c, forwardCase E n t c = some false := by
    intro t c; simp [forwardCase, hf]
  cases a <;> cases b <;>
    simp only [genReal, get_other, fixedCase, voidCase_other h, viaBase, isBoolIx_other h, ptrCase_other h, arrCase,
      genCt_other, fcnCase, matchParams_other, stripCase_other h, fw, fw', suCase, matchFields_other]

omit h in
theorem almostReal_other : almostReal (other E ent) = almostReal E := by
  funext rec a b
  cases a <;> cases b <;>
    simp only [almostReal, viaBase, get_other, almostCt_other, matchParams_other]

theorem run_other (hf : E.fl.forwardDecl = false) (n : Nat) : run (other E ent) n = run E n := by
  induction n with
  | zero => rfl
  | succ n ih =>
    funext m a b
    cases m <;> simp only [run, ih, almostReal_other, realNode_other h, genReal_other h hf]

end outside

theorem outside_other {E' : Env} (h : SameOutside E E') : E' = other E E'.entry ∧ Outside E E'.entry := by
  refine ⟨?_, h.entry⟩
  have h1 := h.node
  have h2 := h.access
  have h3 := h.accessBool
  have h4 := h.fields
  have h5 := h.fl
  cases E'
  simp_all [other]

end Splint.TypeMatch
