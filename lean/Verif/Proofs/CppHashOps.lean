import Verif.Proofs.CppHash
namespace Splint.CppHash

local notation "Addr" => Nat

/-- The values of a name among what the nodes say. -/
def valsI (xs : List (Option (Nat × Text × Value))) (nm : Text) : List Value :=
  xs.filterMap fun o => o.bind fun x => if x.2.1 = nm then some x.2.2 else none

theorem valsOf_valsI (heap : Addr → Option Node) (L : List Addr) (nm : Text) :
    valsOf heap L nm = valsI (L.map (info heap)) nm := by
  unfold valsOf valsI
  rw [List.filterMap_map]; rfl

def copyInfo (x : Nat × Text × Value) : Nat × Text × Value := (x.1, x.2.1, copyValue x.2.2)

theorem valsI_copy (nm : Text) : ∀ xs : List (Option (Nat × Text × Value)),
    valsI (xs.map (Option.map copyInfo)) nm = (valsI xs nm).map copyValue := by
  intro xs
  induction xs with
  | nil => rfl
  | cons o xs ih =>
    unfold valsI at ih ⊢
    cases o with
    | none => simpa using ih
    | some x =>
      by_cases hx : x.2.1 = nm
      · simp [copyInfo, hx]
        simpa [copyInfo] using ih
      · simp [copyInfo, hx]
        simpa [copyInfo] using ih

theorem valsOf_append (heap : Addr → Option Node) (A B : List Addr) (nm : Text) :
    valsOf heap (A ++ B) nm = valsOf heap A nm ++ valsOf heap B nm := by
  unfold valsOf; exact List.filterMap_append

theorem valsOf_cons (heap : Addr → Option Node) (a : Addr) (B : List Addr) (nm : Text) {x} (h : info heap a = some x) :
    valsOf heap (a :: B) nm = if x.2.1 = nm then x.2.2 :: valsOf heap B nm else valsOf heap B nm := by
  unfold valsOf
  by_cases hx : x.2.1 = nm <;> simp [h, hx]

theorem valsOf_length (heap : Addr → Option Node) (L : List Addr) (nm : Text) : (valsOf heap L nm).length ≤ L.length := by
  unfold valsOf; exact List.length_filterMap_le _ _

theorem info_some {heap : Addr → Option Node} {a : Addr} {n : Node} (h : heap a = some n) :
    info heap a = some (n.length, n.name, n.value) := by simp [info, h]

theorem hashCode_lt (t : Text) : hashCode t < hashSize := by
  unfold hashCode; exact Nat.mod_lt _ (by decide)

/-! ### Installing and deleting -/

theorem install_rel {s : State} {e : Env × Env} (h : Rel s e) {text : Text} {len : Option Nat} (hw : WellFormed text len)
    (v : Value) : ∃ s1 hp, install s text len v = some (s1, hp) ∧
      Rel s1 (update e.1 (nameOf text len) (v :: e.1 (nameOf text len)), e.2) ∧
      ∃ s2, delete s1 hp = some s2 ∧ Rel s2 e := by
  obtain ⟨L, hi, h1, h2⟩ := h
  obtain ⟨s', k1, k2, k3, k4, k5⟩ := install_inv hi hw v
  have hnf : ∀ b', s.fresh ∉ L b' := fun b' h => Nat.lt_irrefl _ (hi.bound b' _ h)
  have hsame : ∀ b nm, valsOf s'.heap (L b) nm = valsOf s.heap (L b) nm := fun b nm =>
    valsOf_congr (fun a ha => k4 a (fun h => hnf b (h ▸ ha))) nm
  refine ⟨s', _, k1, ⟨_, k3, ?_, ?_⟩, ?_⟩
  · intro nm
    simp only
    by_cases hb : (true, hashCode nm) = (true, hashCode (nameOf text len))
    · rw [hb, update_same, valsOf_cons _ _ _ _ k5, hsame]
      by_cases hn : nm = nameOf text len
      · subst hn
        rw [if_pos rfl, h1, update_same]
      · rw [if_neg (fun h => hn h.symm), ← hb, h1, update_ne _ _ hn]
    · rw [update_ne _ _ hb, hsame, h1, update_ne]
      rintro rfl; exact hb rfl
  · intro nm
    rw [update_ne _ _ (by simp), hsame, h2]
  · obtain ⟨s2, m1, m2, m3, m4⟩ := delete_inv (L1 := []) (L2 := L (true, hashCode (nameOf text len))) k3 (update_same ..)
    refine ⟨s2, m1, L, ?_, ?_, ?_⟩
    · have : update (update L (true, hashCode (nameOf text len)) (s.fresh :: L (true, hashCode (nameOf text len))))
          (true, hashCode (nameOf text len)) ([] ++ L (true, hashCode (nameOf text len))) = L := by
        funext b
        by_cases hb : b = (true, hashCode (nameOf text len))
        · subst hb; rw [update_same]; rfl
        · rw [update_ne _ _ hb, update_ne _ _ hb]
      rw [this] at m3
      exact m3
    · intro nm
      rw [valsOf_congr (fun a ha => m4 a (fun h => hnf _ (h ▸ ha))), hsame, h1]
    · intro nm
      rw [valsOf_congr (fun a ha => m4 a (fun h => hnf _ (h ▸ ha))), hsame, h2]

theorem delete_rel {s : State} {e : Env × Env} (h : Rel s e) {text : Text} {len : Option Nat} (hw : WellFormed text len) :
    (lookup s text len = some none ∧ e.1 (nameOf text len) = []) ∨
    ∃ hp s', lookup s text len = some (some hp) ∧ delete s hp = some s' ∧ s'.fresh = s.fresh ∧
      (∃ v r, e.1 (nameOf text len) = v :: r ∧ Rel s' (update e.1 (nameOf text len) r, e.2)) := by
  obtain ⟨L, hi, h1, h2⟩ := h
  rw [lookup_find hi hw]
  obtain ⟨k1, k2⟩ := valsOf_find s.heap (nameOf text len) (L (true, hashCode (nameOf text len)))
  cases hf : (L (true, hashCode (nameOf text len))).find? (named s.heap (nameOf text len)) with
  | none => left; exact ⟨rfl, by rw [← h1]; exact k1 hf⟩
  | some a =>
    right
    obtain ⟨n, L1, L2, m1, m2, m3, m4, m5⟩ := k2 a hf
    obtain ⟨s', j1, j2, j3, j4⟩ := delete_inv hi m3
    refine ⟨a, s', rfl, j1, j2, n.value, _, by rw [← h1, m5], _, j3, ?_, ?_⟩
    · have hnd := hi.nodup (true, hashCode (nameOf text len))
      rw [m3] at hnd
      have hnd' := List.nodup_append.1 hnd
      have ha1 : ∀ x ∈ L1, x ≠ a := fun x hx => hnd'.2.2 x hx a (by simp)
      have ha2 : ∀ x ∈ L2, x ≠ a := fun x hx h => (List.nodup_cons.1 hnd'.2.1).1 (h ▸ hx)
      intro nm
      simp only
      by_cases hb : (true, hashCode nm) = (true, hashCode (nameOf text len))
      · rw [hb, update_same, valsOf_append, valsOf_congr (fun x hx => j4 x (ha1 x hx)), valsOf_congr (fun x hx => j4 x (ha2 x hx))]
        by_cases hn : nm = nameOf text len
        · subst hn
          rw [update_same, m4]; rfl
        · rw [update_ne _ _ hn, ← h1, hb, m3, valsOf_append, valsOf_cons _ _ _ _ (info_some m1), if_neg]
          simp only [m2]
          exact fun h => hn h.symm
      · rw [update_ne _ _ hb, valsOf_congr (fun x hx => j4 x ?_), h1, update_ne]
        · rintro rfl; exact hb rfl
        · rintro rfl
          exact hb (hi.disjoint hx (b' := (true, hashCode (nameOf text len))) (by rw [m3]; simp))
    · intro nm
      rw [update_ne _ _ (by simp), valsOf_congr (fun x hx => j4 x ?_), h2]
      rintro rfl
      have := hi.disjoint hx (b' := (true, hashCode (nameOf text len))) (by rw [m3]; simp)
      simp at this

theorem undefLoop_rel {text : Text} {len : Option Nat} (hw : WellFormed text len) : ∀ (fuel : Nat) {s : State} {e : Env × Env},
    Rel s e → (e.1 (nameOf text len)).length < fuel →
    ∃ s', undefLoop text len fuel s = some s' ∧ Rel s' (update e.1 (nameOf text len) [], e.2) := by
  intro fuel
  induction fuel with
  | zero => intro s e _ h; simp at h
  | succ fuel ih =>
    intro s e hr hl
    simp only [undefLoop]
    rcases delete_rel hr hw with ⟨h1, h2⟩ | ⟨hp, s', h1, h2, _, v, r, h3, h4⟩
    · rw [h1]
      refine ⟨s, rfl, ?_⟩
      have : update e.1 (nameOf text len) [] = e.1 := by
        funext nm
        by_cases hn : nm = nameOf text len
        · subst hn; rw [update_same, h2]
        · rw [update_ne _ _ hn]
      rw [this]; exact hr
    · rw [h1]
      simp only [h2, Option.bind_some]
      rw [h3, List.length_cons] at hl
      obtain ⟨s2, j1, j2⟩ := ih h4 (by simp only [update_same]; omega)
      refine ⟨s2, j1, ?_⟩
      have : update (update e.1 (nameOf text len) r) (nameOf text len) [] = update e.1 (nameOf text len) [] := by
        funext nm
        by_cases hn : nm = nameOf text len
        · subst hn; rw [update_same, update_same]
        · rw [update_ne _ _ hn, update_ne _ _ hn, update_ne _ _ hn]
      simp only [this] at j2
      exact j2

theorem undef_rel {s : State} {e : Env × Env} (h : Rel s e) {text : Text} {len : Option Nat} (hw : WellFormed text len) :
    ∃ s', undef s text len = some s' ∧ Rel s' (update e.1 (nameOf text len) [], e.2) := by
  refine undefLoop_rel hw _ h ?_
  obtain ⟨L, hi, h1, h2⟩ := h
  rw [← h1]
  have := valsOf_length s.heap (L (true, hashCode (nameOf text len))) (nameOf text len)
  have := hi.length (true, hashCode (nameOf text len))
  omega

/-! ### Defining -/

theorem seg_value {heap h} {x : Addr} {m : Node} (hx : heap x = some m) (v : Value) : ∀ {L : List Addr} {p c l e},
    Seg heap h p c L l e → Seg (update heap x (some { m with value := v })) h p c L l e := by
  intro L
  induction L with
  | nil => intro p c l e h; exact h
  | cons a L ih =>
    intro p c l e h
    obtain ⟨h1, n, h2, h3, h4, h5⟩ := h
    by_cases ha : a = x
    · subst ha
      rw [hx, Option.some.injEq] at h2
      subst h2
      exact ⟨h1, _, update_same .., h3, h4, ih h5⟩
    · exact ⟨h1, n, by rw [update_ne _ _ ha, h2], h3, h4, ih h5⟩

theorem define_rel {s : State} {e : Env × Env} (h : Rel s e) {text : Text} {len : Option Nat} (hw : WellFormed text len)
    (d : Defn) : ∃ s', define s text len d = some s' ∧
      Rel s' (update e.1 (nameOf text len) (replaceHead (.macro d) (e.1 (nameOf text len))), e.2) := by
  obtain ⟨s1, hp, i1, i2, _⟩ := install_rel h hw (.macro d)
  obtain ⟨L, hi, h1, h2⟩ := h
  unfold define
  rw [lookup_find hi hw]
  obtain ⟨k1, k2⟩ := valsOf_find s.heap (nameOf text len) (L (true, hashCode (nameOf text len)))
  cases hf : (L (true, hashCode (nameOf text len))).find? (named s.heap (nameOf text len)) with
  | none =>
    have := k1 hf
    rw [h1] at this
    simp only [i1, Option.map_some, this, replaceHead]
    rw [this] at i2
    exact ⟨s1, rfl, i2⟩
  | some a =>
    obtain ⟨n, L1, L2, m1, m2, m3, m4, m5⟩ := k2 a hf
    simp only [m1, Option.map_some, Option.some.injEq, exists_eq_left']
    have hia : info (update s.heap a (some { n with value := .macro d })) a = some (n.length, n.name, .macro d) := by
      simp [info, update_same]
    have hne : ∀ x, x ≠ a → info (update s.heap a (some { n with value := .macro d })) x = info s.heap x :=
      fun x hx => info_ne hx
    refine ⟨L, ⟨?_, hi.nodup, hi.bound, ?_⟩, ?_, ?_⟩
    · intro b
      obtain ⟨l, hl⟩ := hi.chain b
      exact ⟨l, seg_value m1 _ hl⟩
    · intro b x hx y hy
      by_cases hxa : x = a
      · subst hxa
        rw [hia, Option.some.injEq] at hy
        subst hy
        exact hi.good b x hx (n.length, n.name, n.value) (info_some m1)
      · rw [hne x hxa] at hy
        exact hi.good b x hx y hy
    · intro nm
      simp only
      by_cases hn : nm = nameOf text len
      · subst hn
        have hnd := hi.nodup (true, hashCode (nameOf text len))
        rw [m3] at hnd
        have hnd' := List.nodup_append.1 hnd
        have ha1 : ∀ x ∈ L1, x ≠ a := fun x hx => hnd'.2.2 x hx a (by simp)
        have ha2 : ∀ x ∈ L2, x ≠ a := fun x hx h => (List.nodup_cons.1 hnd'.2.1).1 (h ▸ hx)
        rw [update_same, ← h1, m5, replaceHead, m3, valsOf_append, valsOf_cons _ _ _ _ hia, if_pos m2,
          valsOf_congr (fun x hx => hne x (ha1 x hx)), m4, valsOf_congr (fun x hx => hne x (ha2 x hx))]
        rfl
      · rw [update_ne _ _ hn, ← h1]
        unfold valsOf
        refine List.filterMap_congr ?_
        intro x _
        by_cases hxa : x = a
        · subst hxa
          have hn' : ¬ n.name = nm := fun h => hn (by rw [← h, m2])
          rw [hia, info_some m1]
          simp [hn']
        · rw [hne x hxa]
    · intro nm
      simp only
      rw [valsOf_congr (fun x hx => hne x ?_), h2]
      rintro rfl
      have := hi.disjoint hx (b' := (true, hashCode (nameOf text len))) (by rw [m3]; simp)
      simp at this

/-! ### Evaluating a condition -/

theorem evalIf_rel {s : State} {e : Env × Env} (h : Rel s e) (ns : List (Text × Option Nat)) (k : Nat)
    (hw : ∀ x ∈ ns, WellFormed x.1 x.2) : ∃ s', evalIf s ns k = some (s', ns.map fun x =>
      (update e.1 "defined".toList (.special k :: e.1 "defined".toList) (nameOf x.1 x.2)).head?) ∧ Rel s' e := by
  have hd : WellFormed "defined".toList none := by intro n hn; simp at hn
  have hname : nameOf "defined".toList none = "defined".toList := by decide
  obtain ⟨s1, hp, h1, h2, s2, h3, h4⟩ := install_rel h hd (.special k)
  rw [hname] at h2
  unfold evalIf
  rw [h1]
  have hm : ns.mapM (fun x => valueOf s1 x.1 x.2) = some (ns.map fun x =>
      (update e.1 "defined".toList (.special k :: e.1 "defined".toList) (nameOf x.1 x.2)).head?) := by
    clear h1 h3
    induction ns with
    | nil => rfl
    | cons x ns ih =>
      have hx := valueOf_rel h2 (hw x (by simp))
      have hr := ih (fun y hy => hw y (by simp [hy]))
      rw [List.mapM_cons, hx, hr]
      rfl
  simp only [Option.bind_some, hm, h3, Option.map_some]
  exact ⟨s2, rfl, h4⟩

/-! ### Copying -/

theorem copyChain_spec (hdr h0 : Bool × Nat) : ∀ (L : List Addr) (fuel : Nat) (s : State) (p c l prev : Option Addr),
    Seg s.heap h0 p c L l none → L.length ≤ fuel → (∀ a ∈ L, a < s.fresh) →
    ∃ s' r, copyChain hdr fuel s c prev = some (s', r) ∧ s'.tab = s.tab ∧ s'.fresh = s.fresh + L.length ∧
      (∀ a < s.fresh, s'.heap a = s.heap a) ∧
      (∃ l', Seg s'.heap hdr prev r (List.range' s.fresh L.length) l' none) ∧
      (List.range' s.fresh L.length).map (info s'.heap) = (L.map (info s.heap)).map (Option.map copyInfo) := by
  intro L
  induction L with
  | nil =>
    intro fuel s p c l prev hs _ _
    obtain ⟨_, rfl⟩ := hs
    refine ⟨s, none, by cases fuel <;> rfl, rfl, rfl, fun _ _ => rfl, ⟨prev, rfl, rfl⟩, rfl⟩
  | cons a L ih =>
    intro fuel s p c l prev hs hf hb
    obtain ⟨rfl, n, h1, h2, h3, h4⟩ := hs
    cases fuel with
    | zero => simp at hf
    | succ fuel =>
      simp only [List.length_cons] at hf
      obtain ⟨s', r, k1, k2, k3, k4, ⟨l', k5⟩, k6⟩ := ih fuel { s with fresh := s.fresh + 1 } (some a) n.next l (some s.fresh)
        h4 (by omega) (fun x hx => by have := hb x (by simp [hx]); simp only; omega)
      simp only at k3 k4 k5 k6
      have hr : ∀ x ∈ List.range' (s.fresh + 1) L.length, x ≠ s.fresh := by
        intro x hx
        rw [List.mem_range'_1] at hx
        omega
      refine ⟨{ s' with heap := update s'.heap s.fresh (some ⟨r, prev, hdr, n.length, n.name, copyValue n.value⟩) }, some s.fresh,
        ?_, k2, ?_, ?_, ?_, ?_⟩
      · simp only [copyChain, h1, k1, Option.map_some]
      · simp only [k3, List.length_cons]; omega
      · intro x hx
        simp only
        rw [update_ne _ _ (by omega), k4 x (by omega)]
      · rw [List.length_cons, List.range'_succ]
        refine ⟨l', rfl, _, update_same .., rfl, rfl, ?_⟩
        exact seg_frame (fun x hx => update_ne _ _ (hr x hx)) k5
      · rw [List.length_cons, List.range'_succ, List.map_cons, List.map_cons, List.map_cons]
        congr 1
        · simp [info, update_same, h1, copyInfo]
        · rw [← k6]
          refine List.map_congr_left ?_
          intro x hx
          exact info_ne (hr x hx)

theorem copyStep {s : State} {L : Bool × Nat → List Addr} (hi : Inv s L) (dst : Bool) (i : Nat) :
    ∃ s' r, copyChain (dst, i) (s.fresh + 1) s (s.tab (!dst, i)) none = some (s', r) ∧
      s'.fresh = s.fresh + (L (!dst, i)).length ∧
      Inv { s' with tab := update s'.tab (dst, i) r } (update L (dst, i) (List.range' s.fresh (L (!dst, i)).length)) ∧
      (∀ a < s.fresh, info s'.heap a = info s.heap a) ∧
      (List.range' s.fresh (L (!dst, i)).length).map (info s'.heap) =
        ((L (!dst, i)).map (info s.heap)).map (Option.map copyInfo) := by
  obtain ⟨l, hl⟩ := hi.chain (!dst, i)
  obtain ⟨s', r, k1, k2, k3, k4, ⟨l', k5⟩, k6⟩ := copyChain_spec (dst, i) (!dst, i) (L (!dst, i)) (s.fresh + 1) s none _ l none hl
    (by have := hi.length (!dst, i); omega) (hi.bound _)
  have hinf : ∀ a < s.fresh, info s'.heap a = info s.heap a := fun a ha => by unfold info; rw [k4 a ha]
  refine ⟨s', r, k1, k3, ⟨?_, ?_, ?_, ?_⟩, hinf, k6⟩
  · intro b
    by_cases hb : b = (dst, i)
    · subst hb
      simp only [update_same]
      exact ⟨l', k5⟩
    · simp only [update_ne _ _ hb, k2]
      obtain ⟨l2, hl2⟩ := hi.chain b
      exact ⟨l2, seg_frame (fun a ha => k4 a (hi.bound b a ha)) hl2⟩
  · intro b
    by_cases hb : b = (dst, i)
    · subst hb; rw [update_same]; exact List.nodup_range'
    · rw [update_ne _ _ hb]; exact hi.nodup b
  · intro b a ha
    by_cases hb : b = (dst, i)
    · subst hb
      rw [update_same, List.mem_range'_1] at ha
      simp only [k3]; omega
    · rw [update_ne _ _ hb] at ha
      have := hi.bound b a ha
      simp only [k3]; omega
  · intro b a ha x hx
    by_cases hb : b = (dst, i)
    · subst hb
      rw [update_same] at ha
      have hm : info s'.heap a ∈ (List.range' s.fresh (L (!dst, i)).length).map (info s'.heap) := List.mem_map_of_mem ha
      rw [k6, List.mem_map] at hm
      obtain ⟨o, ho, hoe⟩ := hm
      obtain ⟨a0, ha0, rfl⟩ := List.mem_map.1 ho
      simp only at hx
      rw [hx] at hoe
      cases hy : info s.heap a0 with
      | none => rw [hy] at hoe; simp at hoe
      | some y =>
        rw [hy] at hoe
        simp only [Option.map_some, Option.some.injEq] at hoe
        subst hoe
        exact hi.good (!dst, i) a0 ha0 y hy
    · rw [update_ne _ _ hb] at ha
      simp only at hx
      rw [hinf a (hi.bound b a ha)] at hx
      exact hi.good b a ha x hx

theorem copyTable_inv (dst : Bool) : ∀ (count i : Nat) (s : State) (L : Bool × Nat → List Addr), Inv s L →
    ∃ s' L', copyTable dst count i s = some s' ∧ Inv s' L' ∧ s.fresh ≤ s'.fresh ∧
      (∀ j, L' (!dst, j) = L (!dst, j)) ∧ (∀ j, j < i → L' (dst, j) = L (dst, j)) ∧
      (∀ a < s.fresh, info s'.heap a = info s.heap a) ∧
      (∀ j, i ≤ j → j < i + count → (L' (dst, j)).map (info s'.heap) =
        ((L (!dst, j)).map (info s.heap)).map (Option.map copyInfo)) := by
  intro count
  induction count with
  | zero =>
    intro i s L hi
    exact ⟨s, L, rfl, hi, Nat.le_refl _, fun _ => rfl, fun _ _ => rfl, fun _ _ => rfl, fun j h1 h2 => by omega⟩
  | succ count ih =>
    intro i s L hi
    obtain ⟨s1, r, k1, k2, k3, k4, k5⟩ := copyStep hi dst i
    obtain ⟨s', L', m1, m2, m3, m4, m5, m6, m7⟩ := ih (i + 1) _ _ k3
    simp only at m3 m6 m7
    have hne : ∀ j, ((!dst, j) : Bool × Nat) ≠ (dst, i) := by intro j; cases dst <;> simp
    refine ⟨s', L', ?_, m2, by omega, ?_, ?_, ?_, ?_⟩
    · simp only [copyTable, k1, Option.bind_some, m1]
    · intro j
      rw [m4, update_ne _ _ (hne j)]
    · intro j hj
      rw [m5 j (by omega), update_ne]
      intro h; simp at h; omega
    · intro a ha
      rw [m6 a (by omega), k4 a ha]
    · intro j h1 h2
      by_cases hj : j = i
      · subst hj
        rw [m5 j (by omega), update_same, ← k5]
        refine List.map_congr_left ?_
        intro x hx
        rw [List.mem_range'_1] at hx
        exact m6 x (by omega)
      · rw [m7 j (by omega) (by omega), update_ne _ _ (hne j)]
        congr 1
        refine List.map_congr_left ?_
        intro x hx
        exact k4 x (hi.bound _ x hx)

theorem copyTable_vals {dst : Bool} {s : State} {L : Bool × Nat → List Addr} (hi : Inv s L) :
    ∃ s' L', copyTable dst hashSize 0 s = some s' ∧ Inv s' L' ∧
      (∀ nm, valsOf s'.heap (L' (!dst, hashCode nm)) nm = valsOf s.heap (L (!dst, hashCode nm)) nm) ∧
      (∀ nm, valsOf s'.heap (L' (dst, hashCode nm)) nm = (valsOf s.heap (L (!dst, hashCode nm)) nm).map copyValue) := by
  obtain ⟨s', L', m1, m2, m3, m4, m5, m6, m7⟩ := copyTable_inv dst hashSize 0 s L hi
  refine ⟨s', L', m1, m2, ?_, ?_⟩
  · intro nm
    rw [m4]
    exact valsOf_congr (fun a ha => m6 a (hi.bound _ a ha)) nm
  · intro nm
    rw [valsOf_valsI, m7 _ (Nat.zero_le _) (by have := hashCode_lt nm; omega), valsI_copy, ← valsOf_valsI]

theorem save_rel {s : State} {e : Env × Env} (h : Rel s e) : ∃ s', save s = some s' ∧
    Rel s' (e.1, fun n => (e.1 n).map copyValue) := by
  obtain ⟨L, hi, h1, h2⟩ := h
  obtain ⟨s', L', m1, m2, m3, m4⟩ := copyTable_vals (dst := false) hi
  refine ⟨s', m1, L', m2, ?_, ?_⟩
  · intro nm; have := m3 nm; simp only [Bool.not_false] at this; rw [this, h1]
  · intro nm; have := m4 nm; simp only [Bool.not_false] at this; rw [this, h1]

theorem restore_rel {s : State} {e : Env × Env} (h : Rel s e) : ∃ s', restore s = some s' ∧
    Rel s' (fun n => (e.2 n).map copyValue, e.2) := by
  obtain ⟨L, hi, h1, h2⟩ := h
  obtain ⟨s', L', m1, m2, m3, m4⟩ := copyTable_vals (dst := true) hi
  refine ⟨s', m1, L', m2, ?_, ?_⟩
  · intro nm; have := m4 nm; simp only [Bool.not_true] at this; rw [this, h2]
  · intro nm; have := m3 nm; simp only [Bool.not_true] at this; rw [this, h2]

/-! ### Cleaning up -/

theorem cleanBucket_inv (i : Nat) : ∀ (fuel : Nat) (s : State) (L : Bool × Nat → List Addr), Inv s L →
    (L (true, i)).length < fuel → ∃ s', cleanBucket i fuel s = some s' ∧ s'.fresh = s.fresh ∧
      Inv s' (update L (true, i) []) ∧ (∀ a, a ∉ L (true, i) → info s'.heap a = info s.heap a) := by
  intro fuel
  induction fuel with
  | zero => intro s L _ h; simp at h
  | succ fuel ih =>
    intro s L hi hf
    obtain ⟨l, hl⟩ := hi.chain (true, i)
    simp only [cleanBucket]
    cases hL : L (true, i) with
    | nil =>
      rw [hL] at hl
      rw [hl.2]
      refine ⟨s, rfl, rfl, ?_, fun _ _ => rfl⟩
      have : update L (true, i) [] = L := by
        funext b
        by_cases hb : b = (true, i)
        · subst hb; rw [update_same, hL]
        · rw [update_ne _ _ hb]
      rw [this]; exact hi
    | cons a M =>
      rw [hL] at hl hf
      rw [hl.1]
      obtain ⟨s1, k1, k2, k3, k4⟩ := delete_inv (L1 := []) (a := a) (L2 := M) hi hL
      simp only [k1, Option.bind_some]
      simp only [List.length_cons] at hf
      obtain ⟨s', m1, m2, m3, m4⟩ := ih s1 _ k3 (by rw [update_same, List.nil_append]; omega)
      refine ⟨s', m1, by rw [m2, k2], ?_, ?_⟩
      · have : update (update L (true, i) ([] ++ M)) (true, i) [] = update L (true, i) [] := by
          funext b
          by_cases hb : b = (true, i)
          · subst hb; rw [update_same, update_same]
          · rw [update_ne _ _ hb, update_ne _ _ hb, update_ne _ _ hb]
        rw [this] at m3; exact m3
      · intro x hx
        simp only [List.mem_cons, not_or] at hx
        rw [m4 x (by rw [update_same]; simpa using hx.2), k4 x hx.1]

theorem cleanup_inv : ∀ (i : Nat) (s : State) (L : Bool × Nat → List Addr), Inv s L →
    ∃ s' L', cleanup i s = some s' ∧ Inv s' L' ∧ (∀ j < i, L' (true, j) = []) ∧
      (∀ j, i ≤ j → L' (true, j) = L (true, j)) ∧ (∀ j, L' (false, j) = L (false, j)) ∧
      (∀ j, ∀ a ∈ L (false, j), info s'.heap a = info s.heap a) := by
  intro i
  induction i with
  | zero => intro s L hi; exact ⟨s, L, rfl, hi, by simp, fun _ _ => rfl, fun _ => rfl, fun _ _ _ => rfl⟩
  | succ i ih =>
    intro s L hi
    obtain ⟨s1, k1, k2, k3, k4⟩ := cleanBucket_inv i (s.fresh + 1) s L hi (by have := hi.length (true, i); omega)
    obtain ⟨s', L', m1, m2, m3, m4, m5, m6⟩ := ih s1 _ k3
    have hne : ∀ j, ((false, j) : Bool × Nat) ≠ (true, i) := by intro j; simp
    refine ⟨s', L', ?_, m2, ?_, ?_, ?_, ?_⟩
    · simp only [cleanup, k1, Option.bind_some, m1]
    · intro j hj
      by_cases hji : j = i
      · subst hji; rw [m4 j (Nat.le_refl _), update_same]
      · exact m3 j (by omega)
    · intro j hj
      rw [m4 j (by omega), update_ne]
      intro h; simp at h; omega
    · intro j; rw [m5, update_ne _ _ (hne j)]
    · intro j a ha
      rw [m6 j a (by rw [update_ne _ _ (hne j)]; exact ha), k4]
      intro h
      exact hne j (hi.disjoint ha h)

theorem cleanup_rel {s : State} {e : Env × Env} (h : Rel s e) : ∃ s', cleanup hashSize s = some s' ∧
    Rel s' (fun _ => [], e.2) := by
  obtain ⟨L, hi, h1, h2⟩ := h
  obtain ⟨s', L', m1, m2, m3, m4, m5, m6⟩ := cleanup_inv hashSize s L hi
  refine ⟨s', m1, L', m2, ?_, ?_⟩
  · intro nm; rw [m3 _ (hashCode_lt nm)]; rfl
  · intro nm; rw [m5, valsOf_congr (m6 _), h2]

/-! ### Histories -/

theorem step_rel {s : State} {e : Env × Env} (h : Rel s e) (o : Op) (hw : o.WellFormed) :
    ∃ s', step s o = some (s', (o.spec copyValue e).2) ∧ Rel s' (o.spec copyValue e).1 := by
  cases o with
  | define t l d =>
    obtain ⟨s', h1, h2⟩ := define_rel h hw d
    exact ⟨s', by simp only [step, h1, Option.map_some]; rfl, h2⟩
  | undef t l =>
    obtain ⟨s', h1, h2⟩ := undef_rel h hw
    exact ⟨s', by simp only [step, h1, Option.map_some]; rfl, h2⟩
  | builtin t l v =>
    obtain ⟨s', hp, h1, h2, _⟩ := install_rel h hw v
    exact ⟨s', by simp only [step, h1, Option.map_some]; rfl, h2⟩
  | look t l => exact ⟨s, by simp only [step, valueOf_rel h hw, Option.map_some]; rfl, h⟩
  | cond ns k =>
    obtain ⟨s', h1, h2⟩ := evalIf_rel h ns k hw
    exact ⟨s', h1, h2⟩
  | save =>
    obtain ⟨s', h1, h2⟩ := save_rel h
    exact ⟨s', by simp only [step, h1, Option.map_some]; rfl, h2⟩
  | restore =>
    obtain ⟨s', h1, h2⟩ := restore_rel h
    exact ⟨s', by simp only [step, h1, Option.map_some]; rfl, h2⟩
  | cleanup =>
    obtain ⟨s', h1, h2⟩ := cleanup_rel h
    exact ⟨s', by simp only [step, h1, Option.map_some]; rfl, h2⟩

theorem empty_rel : Rel empty (fun _ => [], fun _ => []) := by
  refine ⟨fun _ => [], ⟨fun b => ⟨none, rfl, rfl⟩, fun _ => List.nodup_nil, by simp, by simp⟩, fun _ => rfl, fun _ => rfl⟩

theorem run_rel : ∀ (os : List Op) {s : State} {e : Env × Env}, Rel s e → (∀ o ∈ os, o.WellFormed) →
    ∃ s', run s os = some (s', (Op.specs copyValue e os).2) ∧ Rel s' (Op.specs copyValue e os).1 := by
  intro os
  induction os with
  | nil => intro s e h _; exact ⟨s, rfl, h⟩
  | cons o os ih =>
    intro s e h hw
    obtain ⟨s1, h1, h2⟩ := step_rel h o (hw o (by simp))
    obtain ⟨s2, h3, h4⟩ := ih h2 (fun o ho => hw o (by simp [ho]))
    refine ⟨s2, ?_, h4⟩
    simp only [run, h1, Option.bind_some, h3, Option.map_some]
    rfl

end Splint.CppHash
