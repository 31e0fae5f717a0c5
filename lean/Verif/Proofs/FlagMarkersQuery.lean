import Verif.Proofs.FlagMarkersRep
/-!
# The marker list represents the comments read: questions and counts
-/
namespace Splint.FlagMarkers

variable {s : List Marker} {S : List Rec} {bs : List (Int × List Item)}

/-- What a question does to one comment. -/
def hitRec (q : Pos) (r : Rec) : Rec := if r.covers q then { r with hits := r.hits + 1 } else r

theorem hit_eq (S : List Rec) (q : Pos) : hit S q = S.map (hitRec q) := rfl

theorem hitRec_p (q : Pos) (r : Rec) : (hitRec q r).p = r.p := by
  unfold hitRec; split <;> rfl

theorem covers_iff (r : Rec) (q : Pos) : r.covers q = true ↔
    r.c.isCount = true ∧ r.p.file = q.file ∧ r.p.line = q.line ∧ r.p.col ≤ q.col := by
  simp [Rec.covers]

theorem hitRec_not {q : Pos} {r : Rec} (h : ¬ r.covers q = true) : hitRec q r = r := by
  simp [hitRec, h]

theorem hit_none {S : List Rec} {q : Pos} (h : S.any (fun r => r.covers q) = false) :
    hit S q = S := by
  rw [hit_eq]
  conv_rhs => rw [← List.map_id S]
  apply List.map_congr_left
  intro r hr
  rw [List.any_eq_false] at h
  simpa using hitRec_not (h r hr)

/-- A suppression recorded under the counted comment of a line. -/
theorem Rep.addHit {bs1 bs2 : List (Int × List Item)} {B1 B2 : List Item} {x : Item} (q : Pos)
    (code : Int) (h : Rep s S (bs1 ++ (q.file, B1 ++ x :: B2) :: bs2))
    (hx : x.toRec.covers q = true) :
    Rep ((bs1 ++ (q.file, B1 ++ { x with qs := (code, q) :: x.qs } :: B2) :: bs2).flatMap
        (fun b => render b.2)) (hit S q)
      (bs1 ++ (q.file, B1 ++ { x with qs := (code, q) :: x.qs } :: B2) :: bs2) := by
  have hB := h.blocks (q.file, B1 ++ x :: B2) (by simp)
  have hsort := List.pairwise_append.1 hB.sorted
  have hsort2 := List.pairwise_cons.1 hsort.2.1
  have hxi := hB.items x (by simp)
  have hcov := (covers_iff _ _).1 hx
  have hfiles := h.files
  simp only [List.map_append, List.map_cons, List.nodup_append, List.nodup_cons] at hfiles
  have hother : ∀ b ∈ bs1 ++ bs2, b.1 ≠ q.file := by
    intro b hb he
    rcases List.mem_append.1 hb with hb | hb
    · exact hfiles.2.2 b.1 (List.mem_map.2 ⟨b, hb, rfl⟩) q.file (by simp) he
    · exact hfiles.2.1.1 (List.mem_map.2 ⟨b, hb, he⟩)
  have hmapo : ∀ b ∈ bs1 ++ bs2, (b.2.map Item.toRec).map (hitRec q) = b.2.map Item.toRec := by
    intro b hb
    rw [List.map_map]
    apply List.map_congr_left
    intro y hy
    apply hitRec_not
    rw [covers_iff]
    rintro ⟨-, hf, -⟩
    have hb' : b ∈ bs1 ++ (q.file, B1 ++ x :: B2) :: bs2 := by
      simp only [List.mem_append, List.mem_cons] at hb ⊢; tauto
    have := ((h.blocks b hb').items y hy).file
    exact hother b hb (by rw [← this]; exact hf)
  have hmapB : ((B1 ++ x :: B2).map Item.toRec).map (hitRec q) =
      (B1 ++ ({ x with qs := (code, q) :: x.qs } : Item) :: B2).map Item.toRec := by
    simp only [List.map_append, List.map_cons, List.map_map]
    congr 1
    · apply List.map_congr_left
      intro y hy
      apply hitRec_not
      rw [covers_iff]
      rintro ⟨hc, -, hl, -⟩
      have := (hsort.2.2 y hy x (by simp)).2 hc
      have h3 := hcov.2.2.1
      simp only [Item.toRec] at hl h3
      omega
    · congr 1
      · unfold hitRec
        rw [if_pos hx]
        simp [Item.toRec]
      · apply List.map_congr_left
        intro y hy
        apply hitRec_not
        rw [covers_iff]
        rintro ⟨-, -, hl, -⟩
        have := (hsort2.1 y hy).2 hcov.1
        have h3 := hcov.2.2.1
        simp only [Item.toRec] at hl h3
        omega
  have hfil : ∀ f, (hit S q).filter (fun r => r.p.file = f) =
      (S.filter (fun r => r.p.file = f)).map (hitRec q) := by
    intro f
    rw [hit_eq, List.filter_map]
    congr 1
    apply List.filter_congr
    intro r _
    simp [hitRec_p]
  refine ⟨rfl, ?_, ?_, ?_, ?_, ?_⟩
  · simpa using h.files
  · intro b hb
    simp only [List.mem_append, List.mem_cons] at hb
    rcases hb with hb | rfl | hb
    · exact h.blocks b (by simp [hb])
    · refine ⟨?_, ?_⟩
      · intro y hy
        simp only [List.mem_append, List.mem_cons] at hy
        rcases hy with hy | rfl | hy
        · exact hB.items y (by simp [hy])
        · refine ⟨hxi.file, hxi.col, ?_, ?_⟩
          · intro z hz
            rcases List.mem_cons.1 hz with rfl | hz
            · exact ⟨rfl, hcov.2.2.1.symm, hcov.2.2.2⟩
            · exact hxi.qs z hz
          · intro hc
            have := hcov.1
            simp only [Item.toRec] at this
            simp only at hc
            rw [this] at hc; cases hc
        · exact hB.items y (by simp [hy])
      · rw [List.pairwise_append]
        refine ⟨hsort.1, ?_, ?_⟩
        · rw [List.pairwise_cons]
          exact hsort2
        · intro a ha b hb
          rcases List.mem_cons.1 hb with rfl | hb
          · exact hsort.2.2 a ha x (by simp)
          · exact hsort.2.2 a ha b (by simp [hb])
    · exact h.blocks b (by simp [hb])
  · intro b hb
    simp only [List.mem_append, List.mem_cons] at hb
    rcases hb with hb | rfl | hb
    · exact h.nonempty b (by simp [hb])
    · simp
    · exact h.nonempty b (by simp [hb])
  · intro b hb
    rw [hfil, textOrder_map _ (hitRec_p q)]
    simp only [List.mem_append, List.mem_cons] at hb
    rcases hb with hb | rfl | hb
    · rw [h.order b (by simp [hb]), hmapo b (by simp [hb])]
    · have := h.order (q.file, B1 ++ x :: B2) (by simp)
      simp only at this ⊢
      rw [this, hmapB]
    · rw [h.order b (by simp [hb]), hmapo b (by simp [hb])]
  · rw [hit_eq]
    refine (h.perm.map (hitRec q)).trans ?_
    apply List.Perm.of_eq
    have hflat : ∀ l : List (Int × List Item), (∀ b ∈ l, b ∈ bs1 ++ bs2) →
        (l.flatMap (fun b => b.2.map Item.toRec)).map (hitRec q) =
          l.flatMap (fun b => b.2.map Item.toRec) := by
      intro l
      induction l with
      | nil => intro _; rfl
      | cons b l ih =>
        intro hl
        rw [List.flatMap_cons, List.map_append, hmapo b (hl b (by simp)),
          ih (fun b hb => hl b (by simp [hb]))]
    rw [List.flatMap_append, List.flatMap_append, List.map_append, List.flatMap_cons,
      List.flatMap_cons, List.map_append, hflat bs1 (by simp +contextual), hflat bs2 (by simp +contextual)]
    simp only at hmapB ⊢
    rw [hmapB]

theorem split_last (L : List Marker) (loc : FileLoc) :
    ∃ U V, L = U ++ V ∧ (∀ m ∈ V, okAt m loc = false) ∧
      (U = [] ∨ ∃ U' m, U = U' ++ [m] ∧ okAt m loc = true) := by
  induction L with
  | nil => exact ⟨[], [], rfl, by simp, Or.inl rfl⟩
  | cons a L ih =>
    obtain ⟨U, V, rfl, hV, hU⟩ := ih
    rcases hU with rfl | ⟨U', m, rfl, hm⟩
    · by_cases ha : okAt a loc = true
      · exact ⟨[a], V, rfl, hV, Or.inr ⟨[], a, rfl, ha⟩⟩
      · refine ⟨[], a :: V, rfl, ?_, Or.inl rfl⟩
        intro m hm
        rcases List.mem_cons.1 hm with rfl | hm
        · simpa using ha
        · exact hV m hm
    · exact ⟨a :: (U' ++ [m]), V, rfl, hV, Or.inr ⟨a :: U', m, rfl, hm⟩⟩

/-- Where the search for the last marker before a place ends. -/
theorem locate {env : FileEnv} (he : Plain env) (h : Rep s S bs) (q : Pos) (hq : 0 ≤ q.col) :
    (S.any (fun r => r.covers q) = false ∧ ∃ A B V, s = A ++ render B ++ V ∧
      lastBefore1 s q.loc = (if B = [] then 0 else (A ++ render B).length) ∧
      (∀ x ∈ B, ItemOk q.file x) ∧ upTo S q = B.map Item.toRec ∧
      ∀ m ∈ A, m.sameFile env q.loc = false) ∨
    (S.any (fun r => r.covers q) = true ∧ ∃ A n p U W, s = A ++ ⟨.ignoreCount n, Pos.loc p⟩ :: (U ++ W) ∧
      p.file = q.file ∧
      lastBefore1 s q.loc = A.length + 1 + U.length ∧
      (∀ m ∈ U, m.sameFile env q.loc = true ∧ ∃ c, m.kind = .suppress c) ∧
      (∃ m ∈ (U ++ W)[0]?, m.loc.sameFile q.loc = true) ∧
      ∀ code, ∃ bs', Rep (A ++ ⟨.ignoreCount n, Pos.loc p⟩ :: ⟨.suppress code, q.loc⟩ :: (U ++ W))
        (hit S q) bs') := by
  rcases h.block q.file with ⟨hS, hb⟩ | ⟨bs1, B, bs2, rfl, hb1, hb2⟩
  · left
    have hcov : S.any (fun r => r.covers q) = false := by
      rw [List.any_eq_false]
      intro r hr hc
      exact hS r hr ((covers_iff _ _).1 hc).2.1
    refine ⟨hcov, [], [], s, by simp [render], ?_, by simp, ?_, by simp⟩
    · rw [if_pos rfl]
      apply lastBefore_none
      rw [h.eq]
      exact others_notOk h.blocks q hb
    · unfold upTo
      have : S.filter (fun r => r.p.file = q.file) = [] := by
        rw [List.filter_eq_nil_iff]
        intro r hr
        simpa using hS r hr
      rw [this]; rfl
  · have hBok := h.blocks (q.file, B) (by simp)
    obtain ⟨B1, B2, hBe, h1, h2⟩ := split_at hBok q
    simp only at hBe
    subst hBe
    have hup : upTo S q = B1.map Item.toRec := by
      unfold upTo
      have := h.order (q.file, B1 ++ B2) (by simp)
      simp only at this
      rw [this, List.map_append, List.filter_append, List.filter_eq_self.2, List.filter_eq_nil_iff.2]
      · simp
      · intro r hr
        obtain ⟨y, hy, rfl⟩ := List.mem_map.1 hr
        have := h2 y hy
        exact fun hh => this (of_decide_eq_true hh)
      · intro r hr
        obtain ⟨y, hy, rfl⟩ := List.mem_map.1 hr
        exact decide_eq_true (h1 y hy)
    have hBnot : ∀ b ∈ render B2 ++ bs2.flatMap (fun b => render b.2), okAt b q.loc = false := by
      intro b hb
      rcases List.mem_append.1 hb with hb | hb
      · exact after_notOk (f := q.file) (fun y hy => hBok.items y (by simp [hy])) q h2 b hb
      · exact others_notOk (fun b hb => h.blocks b (by simp [hb])) q hb2 b hb
    have hAnot : ∀ m ∈ bs1.flatMap (fun b => render b.2), m.sameFile env q.loc = false :=
      others_notSame he (fun b hb => h.blocks b (by simp [hb])) q hb1
    have hcovB : ∀ r ∈ S, r.covers q = true → ∃ y ∈ B1, y.toRec = r := by
      intro r hr hc
      obtain ⟨b, hb, y, hy, rfl⟩ := (h.mem_iff r).1 hr
      obtain ⟨-, c2, c3, c4⟩ := (covers_iff _ _).1 hc
      have hbf : b.1 = q.file := by rw [← ((h.blocks b hb).items y hy).file]; exact c2
      simp only [List.mem_append, List.mem_cons] at hb
      rcases hb with hb | rfl | hb
      · exact absurd hbf (hb1 b hb)
      · rcases List.mem_append.1 hy with hy | hy
        · exact ⟨y, hy, rfl⟩
        · refine absurd ?_ (h2 y hy)
          simp only [Item.toRec] at c3 c4
          exact Or.inr ⟨c3, c4⟩
      · exact absurd hbf (hb2 b hb)
    rcases B1.eq_nil_or_concat with rfl | ⟨B1', x, hB1⟩
    · left
      have hcov : S.any (fun r => r.covers q) = false := by
        rw [List.any_eq_false]
        intro r hr hc
        obtain ⟨y, hy, -⟩ := hcovB r hr hc
        simp at hy
      refine ⟨hcov, [], [], s, by simp [render], ?_, by simp, hup, by simp⟩
      rw [if_pos rfl]
      apply lastBefore_none
      intro m hm
      rw [h.eq] at hm
      simp only [List.flatMap_append, List.flatMap_cons, List.nil_append, List.mem_append] at hm
      rcases hm with hm | hm | hm
      · exact others_notOk (fun b hb => h.blocks b (by simp [hb])) q hb1 m hm
      · exact hBnot m (by simp [hm])
      · exact hBnot m (by simp only [List.mem_append]; exact Or.inr hm)
    · rw [List.concat_eq_append] at hB1
      subst hB1
      have hxi := hBok.items x (by simp)
      have hxle := h1 x (by simp)
      by_cases hx : x.toRec.covers q = true
      · right
        have hxS : x.toRec ∈ S := (h.mem_iff _).2 ⟨(q.file, B1' ++ [x] ++ B2), by simp, x, by simp, rfl⟩
        refine ⟨List.any_eq_true.2 ⟨_, hxS, hx⟩, ?_⟩
        have hcov := (covers_iff _ _).1 hx
        obtain ⟨n, hn⟩ : ∃ n, x.c = .count n := by
          have := hcov.1
          simp only [Item.toRec] at this
          cases hc : x.c with
          | count n => exact ⟨n, rfl⟩
          | _ => rw [hc] at this; cases this
        obtain ⟨U, V, hUV, hV, hU⟩ := split_last (supMarks x.qs) q.loc
        have hrend : ∀ qs, ({ x with qs := qs } : Item).render =
            ⟨.ignoreCount n, x.p.loc⟩ :: (supMarks qs ++ [⟨.ignoreOff, x.p.lineEnd.loc⟩]) := by
          intro qs
          simp [Item.render, hn, Comment.isCount, Comment.mark]
        have hrx := hrend x.qs
        have hse : s = (bs1.flatMap (fun b => render b.2) ++ render B1') ++
            ⟨.ignoreCount n, x.p.loc⟩ :: (U ++ (V ++ ⟨.ignoreOff, x.p.lineEnd.loc⟩ ::
              (render B2 ++ bs2.flatMap (fun b => render b.2)))) := by
          rw [h.eq]
          simp only [List.flatMap_append, List.flatMap_cons, List.append_assoc, render_append,
            render_cons, render, List.flatMap_nil, List.nil_append, List.append_nil]
          rw [hrx, hUV]
          simp
        have hW : ∀ m ∈ V ++ ⟨.ignoreOff, x.p.lineEnd.loc⟩ ::
              (render B2 ++ bs2.flatMap (fun b => render b.2)), okAt m q.loc = false := by
          intro m hm
          rcases List.mem_append.1 hm with hm | hm
          · exact hV m hm
          · rcases List.mem_cons.1 hm with rfl | hm
            · apply okAt_false (p := x.p.lineEnd) rfl
              rintro ⟨-, hle⟩
              have := hcov.2.2.1
              simp only [Item.toRec] at this
              unfold Pos.le Pos.lineEnd at hle
              simp only at hle
              omega
            · exact hBnot m hm
        refine ⟨_, n, x.p, U, _, hse, hcov.2.1, ?_, ?_, ?_, ?_⟩
        · rw [hse]
          rcases hU with rfl | ⟨U', m, rfl, hm⟩
          · rw [List.nil_append, lastBefore_some _ _ _ _ _ hW]
            · simp
            · exact (okAt_loc _ _ _).2 ⟨hcov.2.1, hxle⟩
          · have e : ∀ (A : List Marker) (a : Marker) (W : List Marker),
                A ++ a :: (U' ++ [m] ++ W) = (A ++ a :: U') ++ m :: W := by
              intro A a W; simp
            rw [e, lastBefore_some _ _ _ _ hm hW]
            simp only [List.length_append, List.length_cons, List.length_nil]
            omega
        · intro m hm
          have hm' : m ∈ supMarks x.qs := by rw [hUV]; simp [hm]
          obtain ⟨z, hz, rfl⟩ := List.mem_map.1 hm'
          refine ⟨?_, _, rfl⟩
          simp only [Marker.sameFile, almostSame he, decide_eq_true_eq]
          exact (hxi.qs z hz).1
        · cases hqs : U ++ (V ++ ⟨.ignoreOff, x.p.lineEnd.loc⟩ ::
              (render B2 ++ bs2.flatMap (fun b => render b.2))) with
          | nil => simp at hqs
          | cons a l =>
            refine ⟨a, by simp, ?_⟩
            have ha : a ∈ supMarks x.qs ∨ a = ⟨.ignoreOff, x.p.lineEnd.loc⟩ := by
              rw [← List.append_assoc, ← hUV] at hqs
              cases hsm : supMarks x.qs with
              | nil => rw [hsm] at hqs; simp at hqs; exact Or.inr hqs.1.symm
              | cons b l' => rw [hsm] at hqs; simp at hqs; exact Or.inl (by simp [hqs.1])
            rcases ha with ha | rfl
            · obtain ⟨z, hz, rfl⟩ := List.mem_map.1 ha
              have := (hxi.qs z hz).1
              simp [FileLoc.sameFile, FileLoc.sameBase, FileLoc.isLib, Pos.loc, this]
            · have := hxi.file
              simp [FileLoc.sameFile, FileLoc.sameBase, FileLoc.isLib, Pos.loc, Pos.lineEnd, this]
        · intro code
          have h' : Rep s S (bs1 ++ (q.file, B1' ++ x :: B2) :: bs2) := by simpa using h
          have := Rep.addHit q code h' hx
          refine ⟨bs1 ++ (q.file, B1' ++ ⟨x.c, x.p, (code, q) :: x.qs⟩ :: B2) :: bs2, ?_⟩
          · convert this using 1
            simp only [List.flatMap_append, List.flatMap_cons, List.append_assoc, render_append,
              render_cons]
            rw [hrend]
            have : supMarks ((code, q) :: x.qs) = ⟨.suppress code, q.loc⟩ :: (U ++ V) := by
              rw [← hUV]; rfl
            rw [this]
            simp
      · left
        have hcov : S.any (fun r => r.covers q) = false := by
          rw [List.any_eq_false]
          intro r hr hc
          obtain ⟨y, hy, rfl⟩ := hcovB r hr hc
          rcases List.mem_append.1 hy with hy | hy
          · have hs := (List.pairwise_append.1 (hBok.left (B1 := B1' ++ [x]) (B2 := B2)).sorted).2.2 y hy x (by simp)
            have c := (covers_iff _ _).1 hc
            have := hs.2 c.1
            have c3 := c.2.2.1
            simp only [Item.toRec] at c3
            unfold Pos.le at hxle
            omega
          · rw [List.mem_singleton] at hy
            exact hx (hy ▸ hc)
        obtain ⟨R, m, hR, hml, -⟩ := render_last x
        have hmok : okAt m q.loc = true := by
          refine (okAt_loc' hml).2 ?_
          split
          · rename_i hxc
            refine ⟨hxi.file, ?_⟩
            have : x.p.line ≠ q.line := by
              intro hl
              apply hx
              rw [covers_iff]
              refine ⟨hxc, hxi.file, hl, ?_⟩
              show x.p.col ≤ q.col
              unfold Pos.le at hxle
              omega
            unfold Pos.le Pos.lineEnd at *
            simp only
            omega
          · exact ⟨hxi.file, hxle⟩
        have hse : s = bs1.flatMap (fun b => render b.2) ++ render (B1' ++ [x]) ++
            (render B2 ++ bs2.flatMap (fun b => render b.2)) := by
          rw [h.eq, List.flatMap_append, List.flatMap_cons]
          show _ ++ (render (B1' ++ [x] ++ B2) ++ _) = _
          rw [render_append]
          simp only [List.append_assoc]
        have hse2 : s = (bs1.flatMap (fun b => render b.2) ++ render B1' ++ R) ++ m ::
            (render B2 ++ bs2.flatMap (fun b => render b.2)) := by
          have hr1 : render [x] = R ++ [m] := by simp [render, hR]
          rw [hse, render_append, hr1]
          simp
        refine ⟨hcov, _, B1' ++ [x], _, hse, ?_, fun y hy => hBok.items y (by
            simp only [List.mem_append] at hy ⊢; tauto), hup, hAnot⟩
        rw [if_neg (by simp), hse2, lastBefore_some _ _ _ _ hmok hBnot]
        have hr1 : render [x] = R ++ [m] := by simp [render, hR]
        rw [render_append, hr1]
        simp only [List.length_append, List.length_cons, List.length_nil]
        omega

/-- The scan over suppressions up to a counted comment. -/
theorem supRev_count {env : FileEnv} (he : Plain env) (nc code : Int) (p q : Pos) (isName : Bool)
    (hp : p.file = q.file) (n : Int) (A U : List Marker)
    (hU : ∀ m ∈ U, m.sameFile env q.loc = true ∧ ∃ c, m.kind = .suppress c) :
    supRev env nc code q.loc isName (U.reverse ++ ⟨.ignoreCount n, p.loc⟩ :: A.reverse) {} =
      (.yes, some A.length) := by
  have : ∀ L : List Marker, (∀ m ∈ L, m.sameFile env q.loc = true ∧ ∃ c, m.kind = .suppress c) →
      supRev env nc code q.loc isName (L ++ ⟨.ignoreCount n, p.loc⟩ :: A.reverse) {} =
        (.yes, some A.length) := by
    intro L
    induction L with
    | nil =>
      intro _
      simp [supRev, Marker.sameFile, almostSame he, hp]
    | cons m L ih =>
      intro h
      obtain ⟨h1, c, h2⟩ := h m (by simp)
      simp only [List.cons_append, supRev, h1, h2, Bool.not_true, Bool.false_eq_true, if_false]
      exact ih (fun m hm => h m (by simp [hm]))
  exact this _ (by simpa using hU)

theorem ignRev_count {env : FileEnv} (he : Plain env) (p q : Pos)
    (hp : p.file = q.file) (n : Int) (A U : List Marker)
    (hU : ∀ m ∈ U, m.sameFile env q.loc = true ∧ ∃ c, m.kind = .suppress c) :
    ignRev env q.loc (U.reverse ++ ⟨.ignoreCount n, p.loc⟩ :: A.reverse) =
      (true, some A.length) := by
  have : ∀ L : List Marker, (∀ m ∈ L, m.sameFile env q.loc = true ∧ ∃ c, m.kind = .suppress c) →
      ignRev env q.loc (L ++ ⟨.ignoreCount n, p.loc⟩ :: A.reverse) = (true, some A.length) := by
    intro L
    induction L with
    | nil =>
      intro _
      simp [ignRev, Marker.sameFile, almostSame he, hp]
    | cons m L ih =>
      intro h
      obtain ⟨h1, c, h2⟩ := h m (by simp)
      simp only [List.cons_append, ignRev, h1, h2, Bool.not_true, Bool.false_eq_true, if_false]
      exact ih (fun m hm => h m (by simp [hm]))
  exact this _ (by simpa using hU)

theorem splice_at (A W : List Marker) (n : Int) (p q : Pos) (hp : p.file = q.file) (k : MKind)
    (hW : ∃ m ∈ W[0]?, m.loc.sameFile q.loc = true) :
    splice (A ++ ⟨.ignoreCount n, p.loc⟩ :: W) A.length ⟨k, q.loc⟩ =
      some (A ++ ⟨.ignoreCount n, p.loc⟩ :: ⟨k, q.loc⟩ :: W) := by
  obtain ⟨m, hm, hs⟩ := hW
  rw [Option.mem_def] at hm
  have h0 : (A ++ ⟨.ignoreCount n, p.loc⟩ :: W)[A.length]? = some ⟨.ignoreCount n, p.loc⟩ := by simp
  have h1 : (A ++ ⟨.ignoreCount n, p.loc⟩ :: W)[A.length + 1]? = some m := by
    rw [List.getElem?_append_right (by omega)]
    simp [hm]
  unfold splice
  simp only [h0, h1, hs, Bool.and_true]
  have : FileLoc.sameFile p.loc q.loc = true := by
    simp [FileLoc.sameFile, FileLoc.sameBase, FileLoc.isLib, Pos.loc, hp]
  rw [if_pos this]
  have e : A ++ (⟨.ignoreCount n, p.loc⟩ : Marker) :: W = (A ++ [⟨.ignoreCount n, p.loc⟩]) ++ W := by
    simp
  have l : A.length + 1 = (A ++ [(⟨.ignoreCount n, p.loc⟩ : Marker)]).length := by simp
  rw [e, l, List.take_left, List.drop_left]
  simp

theorem isLib_loc (q : Pos) : FileLoc.isLib q.loc = false := rfl

theorem warn_rep {env : FileEnv} (he : Plain env) (h : Rep s S bs) (nc code : Int) (isName : Bool)
    (q : Pos) (hq : 0 ≤ q.col) :
    ∃ s' bs', suppressError env nc s code isName q.loc = some (suppressed nc isName S code q, s') ∧
      Rep s' (hit S q) bs' := by
  unfold suppressError
  simp only [isLib_loc, Bool.false_eq_true, if_false]
  rcases locate he h q hq with ⟨hcov, A, B, V, hs, hl, hB, hup, hA⟩ |
    ⟨hcov, A, n, p, U, W, hs, hp, hl, hU, hW, hrep⟩
  · rw [hit_none hcov]
    refine ⟨s, bs, ?_, h⟩
    have hspec : suppressed nc isName S code q = ansRev nc code isName B.reverse {} := by
      have hr := regionOpen_eq B.reverse
      have hg := olderSetting_eq nc code B.reverse
      have hf := fun c => lastSetting_eq c B.reverse
      rw [List.reverse_reverse] at hr hg
      simp only [List.reverse_reverse] at hf
      unfold suppressed inRegion
      rw [hcov, hup, hr, hg, hf, hf]
      cases isName with
      | false =>
        rw [ansRev_plain]
        cases firstSet code B.reverse <;> simp [verdict]
      | true =>
        rw [ansRev_name]
        cases gov nc code B.reverse <;> simp [verdict]
    rw [hspec, hl]
    by_cases hB0 : B = []
    · subst hB0; rfl
    · rw [if_neg hB0, if_neg, supLoop_eq _ _ _ _ _ _ _ (by rw [hs]; simp)]
      · conv in List.take _ s => rw [hs, List.take_left]
        rw [List.reverse_append, supRev_append _ _ _ _ _ _ _ (by simpa using hA),
          supRev_items he _ _ _ _ hB]
        rfl
      · obtain ⟨x, hx⟩ := List.exists_mem_of_ne_nil _ hB0
        have : x.c.mark x.p ∈ render B := List.mem_flatMap.2 ⟨x, hx, by simp [Item.render]⟩
        have hlen := List.length_pos_of_mem this
        simp only [List.length_append]
        omega
  · obtain ⟨bs', hrep⟩ := hrep code
    refine ⟨_, bs', ?_, hrep⟩
    rw [hl, if_neg (by omega), supLoop_eq _ _ _ _ _ _ _ (by rw [hs]; simp; omega)]
    have ht : s.take (A.length + 1 + U.length) = A ++ ⟨.ignoreCount n, p.loc⟩ :: U := by
      have e : s = (A ++ ⟨.ignoreCount n, p.loc⟩ :: U) ++ W := by rw [hs]; simp
      have l : A.length + 1 + U.length = (A ++ (⟨.ignoreCount n, p.loc⟩ : Marker) :: U).length := by
        simp; omega
      rw [e, l, List.take_left]
    rw [ht]
    have hr : (A ++ (⟨.ignoreCount n, p.loc⟩ : Marker) :: U).reverse =
        U.reverse ++ ⟨.ignoreCount n, p.loc⟩ :: A.reverse := by simp
    rw [hr, supRev_count he nc code p q isName hp n A U hU]
    simp only
    rw [hs, splice_at A (U ++ W) n p q hp _ hW]
    have : inRegion S q = true := by simp [inRegion, hcov]
    simp [suppressed, this]

theorem zone_rep {env : FileEnv} (he : Plain env) (h : Rep s S bs) (q : Pos) (hq : 0 ≤ q.col) :
    ∃ s' bs', inIgnore env s q.loc = some (inRegion S q, s') ∧ Rep s' (hit S q) bs' := by
  unfold inIgnore
  simp only [isLib_loc, Bool.false_eq_true, if_false]
  rcases locate he h q hq with ⟨hcov, A, B, V, hs, hl, hB, hup, hA⟩ |
    ⟨hcov, A, n, p, U, W, hs, hp, hl, hU, hW, hrep⟩
  · rw [hit_none hcov]
    refine ⟨s, bs, ?_, h⟩
    have hspec : inRegion S q = regRev B.reverse := by
      have hr := regionOpen_eq B.reverse
      rw [List.reverse_reverse] at hr
      unfold inRegion
      rw [hcov, hup, hr]; simp
    rw [hspec, hl]
    by_cases hB0 : B = []
    · subst hB0; rfl
    · rw [if_neg hB0, ignLoop_eq _ _ _ _ (by rw [hs]; simp)]
      conv in List.take _ s => rw [hs, List.take_left]
      rw [List.reverse_append, ignRev_append _ _ _ _ (by simpa using hA), ignRev_items he _ hB]
      rfl
  · obtain ⟨bs', hrep⟩ := hrep skipFlag
    refine ⟨_, bs', ?_, hrep⟩
    rw [hl, ignLoop_eq _ _ _ _ (by rw [hs]; simp; omega)]
    have ht : s.take (A.length + 1 + U.length) = A ++ ⟨.ignoreCount n, p.loc⟩ :: U := by
      have e : s = (A ++ ⟨.ignoreCount n, p.loc⟩ :: U) ++ W := by rw [hs]; simp
      have l : A.length + 1 + U.length = (A ++ (⟨.ignoreCount n, p.loc⟩ : Marker) :: U).length := by
        simp; omega
      rw [e, l, List.take_left]
    rw [ht]
    have hr : (A ++ (⟨.ignoreCount n, p.loc⟩ : Marker) :: U).reverse =
        U.reverse ++ ⟨.ignoreCount n, p.loc⟩ :: A.reverse := by simp
    rw [hr, ignRev_count he p q hp n A U hU]
    simp only
    rw [hs, splice_at A (U ++ W) n p q hp _ hW]
    have : inRegion S q = true := by simp [inRegion, hcov]
    simp [this]

theorem step_rep {env : FileEnv} (he : Plain env) (h : Rep s S bs) (nc : Int) (isName : Int → Bool)
    (e : PEvent) (hok : e.ok S) :
    ∃ s' bs', step env nc isName s e.event = some (s', (specStep nc isName S e).2) ∧
      Rep s' (specStep nc isName S e).1 bs' := by
  cases e with
  | comment c p =>
    obtain ⟨s', bs', h1, h2⟩ := comment_rep h c p hok
    exact ⟨s', bs', by simp [step, PEvent.event, h1, specStep], h2⟩
  | zone q =>
    obtain ⟨s', bs', h1, h2⟩ := zone_rep he h q hok
    exact ⟨s', bs', by simp [step, PEvent.event, h1, specStep], h2⟩
  | warn code q =>
    obtain ⟨s', bs', h1, h2⟩ := warn_rep he h nc code (isName code) q hok
    exact ⟨s', bs', by simp [step, PEvent.event, h1, specStep], h2⟩

theorem run_rep {env : FileEnv} (he : Plain env) (nc : Int) (isName : Int → Bool)
    (es : List PEvent) {s : List Marker} {S : List Rec} {bs : List (Int × List Item)}
    (h : Rep s S bs) (hok : HistoryOk nc isName S es) :
    ∃ s' bs', run env nc isName s (es.map PEvent.event) = some (s', (specRun nc isName S es).2) ∧
      Rep s' (specRun nc isName S es).1 bs' := by
  induction es generalizing s S bs with
  | nil => exact ⟨s, bs, rfl, h⟩
  | cons e es ih =>
    obtain ⟨s1, bs1, h1, h2⟩ := step_rep he h nc isName e hok.1
    obtain ⟨s2, bs2, h3, h4⟩ := ih h2 hok.2
    exact ⟨s2, bs2, by simp [run, h1, h3, specRun], h4⟩

/-! ## Counts -/

/-- The complaint about one comment. -/
def complaint (r : Rec) : Option Complaint :=
  match r.c with
  | .count n => if n > 0 ∧ n ≠ (r.hits : Int) then some ⟨r.p.loc, n, r.hits⟩ else none
  | _ => none

theorem wrongCounts_eq (S : List Rec) : wrongCounts S = S.filterMap complaint := rfl

theorem checkCounts_sup (qs : List (Int × Pos)) (rest : List Marker) (loc : FileLoc) (n : Int)
    (k : Nat) : checkCounts (supMarks qs ++ rest) (some (loc, n, k)) =
      checkCounts rest (some (loc, n, k + qs.length)) := by
  induction qs generalizing k with
  | nil => rfl
  | cons q qs ih =>
    simp only [supMarks, List.map_cons, List.cons_append, checkCounts]
    rw [← supMarks, ih]
    congr 3
    simp; omega

theorem checkCounts_items (B : List Item) (rest : List Marker) :
    checkCounts (render B ++ rest) none =
      (checkCounts rest none).map ((B.map Item.toRec).filterMap complaint ++ ·) := by
  induction B with
  | nil => simp [render]
  | cons x B ih =>
    rw [render_cons, List.append_assoc]
    cases hc : x.c with
    | count n =>
      have : x.render = ⟨.ignoreCount n, x.p.loc⟩ ::
          (supMarks x.qs ++ [⟨.ignoreOff, x.p.lineEnd.loc⟩]) := by
        simp [Item.render, hc, Comment.isCount, Comment.mark]
      rw [this]
      simp only [List.cons_append, List.append_assoc, List.nil_append, checkCounts]
      rw [checkCounts_sup]
      simp only [checkCounts, Nat.zero_add]
      rw [if_pos (by simp [Pos.loc]), ih]
      by_cases hn : n > 0 ∧ n ≠ (x.qs.length : Int)
      · rw [if_pos hn]
        simp only [List.map_cons, List.filterMap_cons, complaint, Item.toRec, hc, if_pos hn]
        cases checkCounts rest none <;> rfl
      · rw [if_neg hn]
        simp only [List.map_cons, List.filterMap_cons, complaint, Item.toRec, hc, if_neg hn]
    | _ =>
      have : x.render = [x.c.mark x.p] := by
        simp [Item.render, hc, Comment.isCount]
      rw [this, hc]
      simp only [Comment.mark, List.cons_append, List.nil_append, checkCounts, ih, List.map_cons,
        List.filterMap_cons, complaint, Item.toRec, hc]

theorem checkCounts_rep (h : Rep s S bs) :
    ∃ l, checkCounts s none = some l ∧ l.Perm (wrongCounts S) := by
  have key : ∀ bs : List (Int × List Item), checkCounts (bs.flatMap (fun b => render b.2)) none =
      some ((bs.flatMap (fun b => b.2.map Item.toRec)).filterMap complaint) := by
    intro bs
    induction bs with
    | nil => rfl
    | cons b bs ih =>
      rw [List.flatMap_cons, checkCounts_items, ih, List.flatMap_cons, List.filterMap_append]
      rfl
  refine ⟨(bs.flatMap (fun b => b.2.map Item.toRec)).filterMap complaint, ?_, ?_⟩
  · rw [h.eq]; exact key bs
  · rw [wrongCounts_eq]
    exact (h.perm.filterMap complaint).symm

end Splint.FlagMarkers
