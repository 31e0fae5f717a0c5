import Verif.Spec.Special
import Verif.Props.Comment
/-!
# C119: comments for the checker are read to their end, and understood
-/
namespace Splint.Special
open Spec

theorem blank_iff {c : Char} : blank c = true ↔ Blank c := by
  simp [blank, Blank, or_assoc]

theorem sign_iff {c : Char} : sign c = true ↔ Sign c := by
  simp [sign, Sign, or_assoc]

theorem space_iff {c : Char} : space c = true ↔ Space c := by
  have h1 : c = Char.ofNat 11 ↔ c.toNat = 11 :=
    ⟨fun h => by rw [h]; rfl, fun h => by rw [← h, Char.ofNat_toNat]⟩
  have h2 : c = Char.ofNat 12 ↔ c.toNat = 12 :=
    ⟨fun h => by rw [h]; rfl, fun h => by rw [← h, Char.ofNat_toNat]⟩
  simp only [space, Space, Bool.or_eq_true, blank_iff, beq_iff_eq, h1, h2, or_assoc]

theorem takeWhile_all {p : Char → Bool} {a b : Text} (h : ∀ x ∈ a, p x = true) :
    (a ++ b).takeWhile p = a ++ b.takeWhile p ∧ (a ++ b).dropWhile p = b.dropWhile p := by
  induction a with
  | nil => simp
  | cons c a ih =>
    have hc := h c (by simp)
    obtain ⟨h1, h2⟩ := ih fun x hx => h x (by simp [hx])
    simp [hc, h1, h2]

/-- `b` is empty or begins with something else -/
def Stops (p : Char → Bool) (b : Text) : Prop := ∀ c t, b = c :: t → p c = false

theorem takeWhile_stops {p : Char → Bool} {b : Text} (h : Stops p b) : b.takeWhile p = [] ∧ b.dropWhile p = b := by
  cases b with
  | nil => simp
  | cons c b => simp [h c b rfl]

theorem split_stops {p : Char → Bool} {a b : Text} (ha : ∀ x ∈ a, p x = true) (hb : Stops p b) :
    (a ++ b).takeWhile p = a ∧ (a ++ b).dropWhile p = b := by
  obtain ⟨h1, h2⟩ := takeWhile_all (b := b) ha
  rw [h1, h2, (takeWhile_stops hb).1, (takeWhile_stops hb).2]
  simp

theorem notPercent_iff {u : Text} (h : '%' ∉ u) : ∀ x ∈ u, (decide (x ≠ '%')) = true := by
  intro x hx
  simp only [decide_eq_true_eq]
  rintro rfl
  exact h hx

theorem readBody_eq {s u v : Text} (h : '%' ∉ u) : readBody s (u ++ '%' :: '}' :: v) = .body (s ++ u) v := by
  obtain ⟨h1, h2⟩ := split_stops (p := fun x => decide (x ≠ '%')) (a := u) (b := '%' :: '}' :: v) (notPercent_iff h)
    (by rintro c t ⟨⟩; simp)
  unfold readBody
  rw [h1, h2]
  simp

/-- the letters at the beginning -/
theorem read_eq {w r : Text} {c : Char} (hw : ∀ x ∈ w, x.isAlpha = true) (hc : c.isAlpha = false) :
    read (w ++ c :: r)
      = if w = [] ∧ c = '%' then
          match r with
          | c :: r' => if c = '}' then .noMods r' else .fails
          | [] => .fails
        else match parseTable.lookup w with
          | some tok => .clause tok r
          | none => readBody (w ++ [c]) r := by
  obtain ⟨h1, h2⟩ := split_stops (p := Char.isAlpha) (a := w) (b := c :: r) hw (by rintro d t ⟨⟩; exact hc)
  unfold read
  rw [h1, h2]
  rfl

theorem split_alpha (i : Text) : ∃ w r, i = w ++ r ∧ (∀ x ∈ w, x.isAlpha = true) ∧ Stops Char.isAlpha r := by
  induction i with
  | nil => exact ⟨[], [], rfl, by simp, by rintro c t ⟨⟩⟩
  | cons c i ih =>
    by_cases hc : c.isAlpha = true
    · obtain ⟨w, r, rfl, h1, h2⟩ := ih
      exact ⟨c :: w, r, rfl, by simpa [hc] using h1, h2⟩
    · exact ⟨[], c :: i, rfl, by simp, by rintro d t ⟨⟩; simpa using hc⟩

theorem lookup_mem {l : List (Text × Text)} {k v : Text} (h : l.lookup k = some v) : (k, v) ∈ l := by
  induction l with
  | nil => simp at h
  | cons p l ih =>
    obtain ⟨a, b⟩ := p
    rw [List.lookup_cons] at h
    by_cases hk : k == a
    · simp [hk] at h
      simp at hk
      simp [hk, h]
    · simp [hk] at h
      exact List.mem_cons_of_mem _ (ih h)

theorem mem_lookup {l : List (Text × Text)} {k v : Text} (hn : (l.map (·.1)).Nodup) (h : (k, v) ∈ l) :
    l.lookup k = some v := by
  induction l with
  | nil => cases h
  | cons p l ih =>
    obtain ⟨a, b⟩ := p
    rw [List.lookup_cons]
    simp only [List.map_cons, List.nodup_cons] at hn
    rcases List.mem_cons.1 h with h' | h'
    · cases h'
      simp
    · have hka : ¬ k = a := by
        rintro rfl
        exact hn.1 (List.mem_map.2 ⟨(k, v), h', rfl⟩)
      have hka' : (k == a) = false := by simpa using hka
      rw [hka']
      exact ih hn.2 h'

theorem keyTable_nodup : (keyTable.map (·.1)).Nodup := by decide +kernel

/-! ## Flags -/

theorem next_gap {gap t : Text} (hg : ∀ x ∈ gap, Blank x) (ht : gap = [] → t = [] ∨ ∃ d u, t = d :: u ∧ Sign d)
    (hs : Stops blank t) : next (gap ++ t) = t := by
  cases gap with
  | nil =>
    rcases ht rfl with rfl | ⟨d, u, rfl, hd⟩
    · rfl
    · have : blank d = false := hs d u rfl
      simp [next, this]
  | cons c gap =>
    have hc := blank_iff.2 (hg c (by simp))
    simp only [List.cons_append, next, hc, if_true]
    exact (split_stops (fun x hx => blank_iff.2 (hg x (by simp [hx]))) hs).2

theorem settings_stops {cls : Text → Class} {tail t : Text} {es : List Eff} (h : Settings cls tail t es)
    (ht : Stops blank tail) : Stops blank t := by
  have key : ∀ c, Sign c → blank c = false := by
    rintro c (rfl | rfl | rfl) <;> decide
  cases h with
  | done => exact ht
  | simple hc => rintro d u ⟨⟩; exact key _ hc
  | value hc => rintro d u ⟨⟩; exact key _ (by unfold Sign; tauto)

theorem endsName_false {name : Text} (h : ∀ x ∈ name, ¬ Sign x ∧ ¬ Blank x) : ∀ x ∈ name, (!endsName x) = true := by
  intro x hx
  have h1 := (h x hx).1
  have h2 := (h x hx).2
  rw [← sign_iff] at h1
  rw [← blank_iff] at h2
  simp only [endsName]
  simp [h1, h2]

theorem stops_endsName {gap t : Text} (hg : ∀ x ∈ gap, Blank x) (ht : gap = [] → t = [] ∨ ∃ d u, t = d :: u ∧ Sign d) :
    Stops (!endsName ·) (gap ++ t) := by
  cases gap with
  | nil =>
    rcases ht rfl with rfl | ⟨d, u, rfl, hd⟩
    · rintro c t ⟨⟩
    · rintro c t ⟨⟩
      simp [endsName, sign_iff.2 hd]
  | cons c gap =>
    rintro d t ⟨⟩
    simp [endsName, blank_iff.2 (hg c (by simp))]

theorem flags_simple {cls : Text → Class} {n : Nat} {c : Char} {name s : Text} (hc : Sign c)
    (hn : s.takeWhile (!endsName ·) = name) (hv : cls name = .value → c = '=') :
    flags false cls (n + 1) (c :: s)
      = effect cls c name ++ flags false cls n (next (s.dropWhile (!endsName ·))) := by
  rw [flags, if_pos (sign_iff.2 hc)]
  simp only [hn, Bool.false_eq_true, if_false]
  unfold effect
  cases hcl : cls name with
  | skip => simp
  | invalid => simp
  | global => simp
  | simple => simp
  | mode => simp only; split_ifs <;> simp
  | value => simp [hv hcl]

theorem argument_eq {name gap arg gap' t : Text} (hg : ∀ x ∈ gap, Blank x) (hne : gap ≠ []) (ha : ∀ x ∈ arg, ¬ Space x)
    (hane : arg ≠ []) (hg' : ∀ x ∈ gap', Blank x) (ht : gap' = [] → t = []) (hs : Stops blank t) :
    (argument name (gap ++ (arg ++ (gap' ++ t)))).1 = [.value name arg]
      ∧ next (argument name (gap ++ (arg ++ (gap' ++ t)))).2 = t := by
  cases gap with
  | nil => exact absurd rfl hne
  | cons c gap =>
    have hbs : ∀ x, Blank x → space x = true := fun x hx => space_iff.2 (Or.inl hx)
    have hst : Stops space (arg ++ (gap' ++ t)) := by
      cases arg with
      | nil => exact absurd rfl hane
      | cons a arg =>
        rintro d u ⟨⟩
        have := ha a (by simp)
        rw [← space_iff] at this
        simpa using this
    have h1 := (split_stops (p := space) (a := c :: gap) (fun x hx => hbs x (hg x hx)) hst).2
    have hst' : Stops (!space ·) (gap' ++ t) := by
      cases gap' with
      | nil => rw [ht rfl]; rintro d u ⟨⟩
      | cons a gap' =>
        rintro d u ⟨⟩
        simp [hbs a (hg' a (by simp))]
    obtain ⟨h2, h3⟩ := split_stops (p := (!space ·)) (a := arg) (b := gap' ++ t)
      (fun x hx => by have := ha x hx; rw [← space_iff] at this; simpa using this) hst'
    unfold argument
    simp only [List.cons_append] at h1 ⊢
    rw [h1, h2, h3, if_neg hane]
    refine ⟨rfl, ?_⟩
    simp only [next, blank_iff.2 (hg c (by simp)), if_true]
    exact (split_stops (fun x hx => blank_iff.2 (hg' x hx)) hs).2

theorem flags_settings {cls : Text → Class} {tail t : Text} {es : List Eff} (h : Settings cls tail t es)
    (htail : Stops blank tail) (hsign : Stops sign tail) : ∀ n, t.length < n → flags false cls n t = es := by
  induction h with
  | done =>
    intro n hn
    cases n with
    | zero => omega
    | succ n =>
      cases tail with
      | nil => rfl
      | cons c tail => rw [flags, hsign c tail rfl]; simp
  | @simple c name gap t es hc hname hv hg ht hset ih =>
    intro n hn
    cases n with
    | zero => omega
    | succ n =>
      obtain ⟨h1, h2⟩ := split_stops (endsName_false hname) (stops_endsName hg ht)
      rw [flags_simple hc h1 hv, h2, next_gap hg ht (settings_stops hset htail), ih n (by simp at hn; omega)]
  | @value c name gap arg gap' t es hc hname hv hg hgne ha hane hg' ht hset ih =>
    intro n hn
    cases n with
    | zero => omega
    | succ n =>
      obtain ⟨h1, h2⟩ := split_stops (endsName_false hname)
        (stops_endsName (gap := gap) (t := arg ++ (gap' ++ t)) hg (fun h => absurd h hgne))
      have hc' : Sign c := by unfold Sign; tauto
      have hne : ¬ c = '=' := by rintro rfl; revert hc; decide
      obtain ⟨h3, h4⟩ := argument_eq (name := name) hg hgne ha hane hg' ht (settings_stops hset htail)
      rw [flags, if_pos (sign_iff.2 hc')]
      simp only [h1, h2, hv, h3, h4, Bool.false_eq_true, if_false, if_neg hne]
      rw [ih n (by simp at hn; omega)]
      rfl

theorem flags_off (cls : Text → Class) : ∀ (n : Nat) (t : Text), flags true cls n t = [] := by
  intro n
  induction n with
  | zero => intro t; rfl
  | succ n ih =>
    intro t
    cases t with
    | nil => rfl
    | cons c t =>
      rw [flags]
      by_cases hc : sign c = true
      · rw [if_pos hc]
        simp [ih]
      · rw [if_neg hc]

/-! ## Names of types -/

theorem notSep {name : Text} (h : ∀ x ∈ name, ¬ Blank x ∧ x ≠ ',') : ∀ x ∈ name, (!(blank x || x == ',')) = true := by
  intro x hx
  have h1 := (h x hx).1
  rw [← blank_iff] at h1
  simp [h1, (h x hx).2]

theorem types_step {gap name r : Text} (hg : ∀ x ∈ gap, Blank x) (hne : name ≠ [])
    (hn : ∀ x ∈ name, ¬ Blank x ∧ x ≠ ',') (hr : Stops (fun c => !(blank c || c == ',')) r) (n : Nat) :
    types (n + 1) (gap ++ (name ++ r))
      = match r with
        | [] => [name]
        | c :: r' => name :: if c ≠ ',' ∧ c ≠ ' ' then [] else types n r' := by
  cases name with
  | nil => exact absurd rfl hne
  | cons a name =>
    have hs : Stops blank (a :: name ++ r) := by
      rintro d u ⟨⟩
      have := (hn a (by simp)).1
      rw [← blank_iff] at this
      simpa using this
    have h1 := (split_stops (fun x hx => blank_iff.2 (hg x hx)) hs).2
    obtain ⟨h2, h3⟩ := split_stops (notSep hn) hr
    rw [types, h1]
    simp only [List.cons_append] at h2 h3 ⊢
    rw [h2, h3]
    cases r <;> rfl

/-! ## Words -/

theorem other_plain (cfg : Cfg) (t rest x : Text) (es : List Eff) :
    other cfg t rest ≠ .flags es ∧ other cfg t rest ≠ .token x ∧ other cfg t rest ≠ .annotation x := by
  unfold other suppress
  repeat' split
  all_goals simp

theorem toLower_lower (t : Text) : ∀ c ∈ t.map Char.toLower, c.isUpper = false := by
  intro c hc
  obtain ⟨d, -, rfl⟩ := List.mem_map.1 hc
  by_cases h : d.val ≥ 'A'.val ∧ d.val ≤ 'Z'.val
  · rw [Char.toLower, dif_pos h, Char.isUpper]
    simp only [decide_eq_false_iff_not, ge_iff_le, UInt32.le_iff_toNat_le]
    rw [ge_iff_le, UInt32.le_iff_toNat_le, UInt32.le_iff_toNat_le] at h
    have e : (d.val + ('a'.val - 'A'.val)).toNat = d.val.toNat + 32 := by
      rw [UInt32.toNat_add]
      have : ('a'.val - 'A'.val).toNat = 32 := by decide
      rw [this]
      have : 'Z'.val.toNat = 90 := by decide
      omega
    rw [e]
    have h1 : 'Z'.val.toNat = 90 := by decide
    have h2 : 'A'.val.toNat = 65 := by decide
    omega
  · simp only [Char.toLower, dif_neg h, Char.isUpper]
    simpa using h

theorem number_go (ds : Text) : ∀ v, ds.foldl (fun v c => 10 * v + (c.toNat - '0'.toNat)) v = v * 10 ^ ds.length + decimal ds := by
  induction ds with
  | nil => intro v; simp [decimal]
  | cons c ds ih =>
    intro v
    simp only [List.foldl_cons, ih, decimal, List.length_cons]
    rw [show '0'.toNat = 48 from rfl]
    ring

theorem number_eq (ds : Text) : number ds = decimal ds := by
  unfold number
  rw [number_go]
  simp

/-- a comment of one word without a sign -/
theorem interpret_word {cfg : Cfg} {lead w x : Text} (hl : ∀ y ∈ lead, Blank y) (hw : ∀ y ∈ w, ¬ Blank y)
    (hs : ∀ c u, w = c :: u → ¬ Sign c) (hx : ∀ c u, x = c :: u → Blank c) (hne : w ≠ [])
    (hk : ∀ p ∈ keyTable, p.1 ≠ w.map Char.toLower) (ha : lead ++ w ∉ cfg.annotations) :
    interpret cfg (lead ++ (w ++ x)) = other cfg (w.map Char.toLower) (x.drop 1) := by
  obtain ⟨c, w', rfl⟩ := List.exists_cons_of_ne_nil hne
  have hst : Stops blank (c :: w' ++ x) := by
    rintro e t ⟨⟩
    have := hw c (by simp)
    rw [← blank_iff] at this
    simpa using this
  obtain ⟨h1, h2⟩ := split_stops (fun y hy => blank_iff.2 (hl y hy)) hst
  unfold interpret
  simp only [List.cons_append] at h1 h2 ⊢
  rw [h1, h2]
  have hsg : sign c = false := by
    have := hs c w' rfl
    rw [← sign_iff] at this
    simpa using this
  simp only [hsg, Bool.false_eq_true, if_false]
  obtain ⟨h3, h4⟩ := split_stops (p := (!blank ·)) (a := c :: w') (b := x)
    (fun y hy => by have := hw y hy; rw [← blank_iff] at this; simpa using this)
    (fun e t h => by simp [blank_iff.2 (hx e t h)])
  simp only [List.cons_append] at h3 h4
  unfold Special.word
  simp only [h3, h4]
  cases hlk : keyTable.lookup ((c :: w').map Char.toLower) with
  | some tok => exact absurd rfl (hk _ (lookup_mem hlk))
  | none => simp only [if_neg ha]

theorem types_names {t : Text} {ns : List Text} (h : Names t ns) : ∀ n, t.length < n → types n t = ns := by
  induction h with
  | none hg =>
    intro n hn
    cases n with
    | zero => omega
    | succ n =>
      rename_i gap
      have := (takeWhile_all (b := []) (fun x hx => blank_iff.2 (hg x hx))).2
      simp only [List.append_nil, List.dropWhile_nil] at this
      rw [types, this]
  | @one gap name hg hne hn =>
    intro n hlt
    cases n with
    | zero => omega
    | succ n =>
      have := types_step hg hne hn (r := []) (by rintro c t ⟨⟩) n
      simpa using this
  | @cons gap name c t ns hg hne hn hc hnames ih =>
    intro n hlt
    cases n with
    | zero => omega
    | succ n =>
      rw [types_step hg hne hn (r := c :: t) (by rintro d u ⟨⟩; rcases hc with rfl | rfl <;> decide) n]
      have hc' : ¬ (c ≠ ',' ∧ c ≠ ' ') := by tauto
      simp only
      rw [if_neg hc', ih n (by simp at hlt; omega)]

end Splint.Special

namespace Splint
open Special Special.Spec

/-- A comment is read to its end: what follows is left. -/
def C119_full : Prop :=
  ∀ (i rest : Text), '%' ∉ i → i ≠ [] → (∃ tok r, read (i ++ '%' :: '}' :: rest) = .clause tok (r ++ '%' :: '}' :: rest))
    ∨ read (i ++ '%' :: '}' :: rest) = .body i rest

/-- So it is, if there is something in it that is not a letter. -/
theorem C119_frame_partial (i rest : Text) (h : '%' ∉ i) (ha : ∃ c ∈ i, c.isAlpha = false) :
    (∃ tok r, read (i ++ '%' :: '}' :: rest) = .clause tok (r ++ '%' :: '}' :: rest))
      ∨ read (i ++ '%' :: '}' :: rest) = .body i rest := by
  obtain ⟨w, r, rfl, hw, hr⟩ := split_alpha i
  cases r with
  | nil =>
    obtain ⟨c, hc, hc'⟩ := ha
    rw [List.append_nil] at hc
    rw [hw c hc] at hc'
    cases hc'
  | cons c r =>
    have hc := hr c r rfl
    simp only [List.append_assoc, List.cons_append]
    rw [read_eq hw hc]
    have hcp : c ≠ '%' := by rintro rfl; simp at h
    rw [if_neg (by tauto)]
    cases hl : parseTable.lookup w with
    | some tok => exact Or.inl ⟨tok, r, rfl⟩
    | none =>
      refine Or.inr ?_
      simp only
      rw [readBody_eq (by simp at h; tauto)]
      simp

/-- A comment for the checker that ends with the comment character and `*/` in the source is read to its end. -/
theorem C119_closed (cfg : Comment.Cfg) (inner o : Text) (acts : List Comment.Act)
    (he : ¬ Comment.Spec.Eliminated (inner ++ [cfg.marker]))
    (ho : Comment.handle cfg ('*' :: cfg.marker :: (inner ++ [cfg.marker] ++ ['*', '/'])) = some (o, acts)) :
    ∃ i, o = c!" %{" ++ i ++ c!"%}" ∧ ∀ rest,
      (∃ tok r, read (i ++ '%' :: '}' :: rest) = .clause tok (r ++ '%' :: '}' :: rest))
        ∨ read (i ++ '%' :: '}' :: rest) = .body i rest := by
  obtain ⟨i, h1, h2, h3, h4⟩ := C118_marked cfg _ o acts he ho
  refine ⟨i, h1, fun rest => C119_frame_partial i rest h2 ⟨' ', ?_, by decide⟩⟩
  have := h4 inner.length cfg.marker (by simp)
  simp only [or_true, if_true] at this
  exact List.mem_of_getElem? this

example : Comment.handle Splint.exAt c!"*@only@*/" = some (c!" %{only %}", []) ∧ read c!"only %} int x;" = .body c!"only " c!" int x;" := by
  decide

/-- If there are only letters, all that follows up to the end of the next comment is read as part of it. -/
theorem C119_swallows (w u rest : Text) (hne : w ≠ []) (hw : ∀ x ∈ w, x.isAlpha = true) (hk : parseTable.lookup w = none)
    (hu : '%' ∉ u) : read (w ++ '%' :: '}' :: (u ++ '%' :: '}' :: rest)) = .body (w ++ '%' :: '}' :: u) rest := by
  rw [read_eq hw (by decide), if_neg (by tauto), hk]
  simp only
  rw [show ('}' :: (u ++ '%' :: '}' :: rest)) = ('}' :: u) ++ '%' :: '}' :: rest by simp,
    readBody_eq (by simp [hu])]
  simp

/-- and if there is none, up to the end of the file, or up to the next remainder, where an assertion fails -/
theorem C119_swallows_all (w rest : Text) (hne : w ≠ []) (hw : ∀ x ∈ w, x.isAlpha = true)
    (hk : parseTable.lookup w = none) :
    ('%' ∉ rest → read (w ++ '%' :: '}' :: rest) = .eof)
    ∧ ∀ u c v, rest = u ++ '%' :: c :: v → '%' ∉ u → c ≠ '}' → read (w ++ '%' :: '}' :: rest) = .fails := by
  rw [read_eq hw (by decide), if_neg (by tauto), hk]
  simp only
  unfold readBody
  constructor
  · intro h
    have := (takeWhile_all (p := fun x => decide (x ≠ '%')) (a := '}' :: rest) (b := []) (notPercent_iff (by simp [h]))).2
    simp only [List.append_nil, List.dropWhile_nil] at this
    rw [this]
  · rintro u c v rfl hu hc
    have := (split_stops (p := fun x => decide (x ≠ '%')) (a := '}' :: u) (b := '%' :: c :: v)
      (notPercent_iff (by simp [hu])) (by rintro d t ⟨⟩; simp)).2
    simp only [List.cons_append] at this
    rw [this]
    simp [hc]

/-- `/*@null*/ int *p; /*@only@*/ int *q;` -/
example : Comment.handle Splint.exAt c!"*@null*/" = some (c!" %{null%}", [])
    ∧ read c!"null%} int *p; %{only %} int *q;" = .fails
    ∧ read c!"null%} int *p;" = .eof ∧ read c!"null%} x; %} y" = .body c!"null%} x; " c!" y" := by decide

theorem C119_full_is_false : ¬ C119_full := by
  intro h
  rcases h c!"null" c!" int *p;" (by decide) (by decide) with ⟨tok, r, h⟩ | h
  · rw [(C119_swallows_all c!"null" c!" int *p;" (by decide) (by decide) (by decide)).1 (by decide)] at h
    cases h
  · revert h; decide

/-- The character after the word that begins a clause is lost, whatever it is. -/
theorem C119_clause_loses_char (w tok rest : Text) (c : Char) (hw : (w, tok) ∈ parseTable) (hc : c.isAlpha = false) :
    read (w ++ c :: rest) = .clause tok rest := by
  have hall : ∀ p ∈ parseTable, parseTable.lookup p.1 = some p.2 ∧ p.1 ≠ [] ∧ ∀ x ∈ p.1, x.isAlpha = true := by decide +kernel
  obtain ⟨h1, h2, h3⟩ := hall _ hw
  rw [read_eq h3 hc, if_neg (by tauto), h1]

/-- `/*@modifies*x@*/` is read like `/*@modifies x@*/`; of the end marker of `/*@globals*/` the second character is
left. -/
example : read c!"modifies*x %}" = .clause c!"QMODIFIES" c!"x %}" ∧ read c!"modifies x %}" = .clause c!"QMODIFIES" c!"x %}"
    ∧ read c!"globals%} int f;" = .clause c!"QGLOBALS" c!"} int f;" := by decide

/-- What follows the word of a clause is all read by the grammar. -/
def C119_clause_full : Prop :=
  ∀ (w tok rest : Text) (c : Char), (w, tok) ∈ parseTable → c.isAlpha = false → ¬ Blank c →
    read (w ++ c :: rest) = .clause tok (c :: rest)

theorem C119_clause_full_is_false : ¬ C119_clause_full := by
  intro h
  exact absurd (h c!"modifies" c!"QMODIFIES" c!"x %}" '*' (by decide +kernel) (by decide) (by decide)) (by decide)

/-- After a blank no clause is recognised. -/
theorem C119_blank_no_clause (i rest tok r : Text) (b : Char) (hb : Blank b) :
    read (b :: i ++ '%' :: '}' :: rest) ≠ .clause tok r := by
  have hc : b.isAlpha = false := by rcases hb with rfl | rfl | rfl <;> decide
  have hp : b ≠ '%' := by rcases hb with rfl | rfl | rfl <;> decide
  have := read_eq (w := []) (r := i ++ '%' :: '}' :: rest) (by simp) hc
  simp only [List.nil_append] at this
  rw [List.cons_append, this, if_neg (by simp [hp])]
  have : parseTable.lookup ([] : Text) = none := by decide +kernel
  rw [this]
  simp only
  unfold readBody
  split <;> try simp
  split_ifs <;> simp

/-- and the comment is reported not to be recognised. -/
theorem C119_blank_clause_unrecognized (cfg : Special.Cfg) (w tok x : Text) (b d : Char) (hb : Blank b) (hd : Blank d)
    (hw : (w, tok) ∈ parseTable) (ha : b :: w ∉ cfg.annotations) :
    interpret cfg (b :: (w ++ d :: x)) = .unrecognized := by
  have hall : ∀ p ∈ parseTable, (∀ x ∈ p.1, x.isAlpha = true) ∧ p.1 ≠ []
      ∧ keyTable.lookup (p.1.map Char.toLower) = none ∧ p.1.map Char.toLower ≠ c!"ignore"
      ∧ p.1.map Char.toLower ≠ c!"end" ∧ p.1.map Char.toLower ≠ c!"notfunction" ∧ p.1.map Char.toLower ≠ c!"access"
      ∧ p.1.map Char.toLower ≠ c!"noaccess" ∧ 2 ≤ p.1.length ∧ ∀ x ∈ p.1.map Char.toLower, x.isDigit = false := by
    decide +kernel
  obtain ⟨h1, h2, h3, h4, h5, h6, h7, h8, h9, h10⟩ := hall _ hw
  simp only at h1 h2 h3 h4 h5 h6 h7 h8 h9 h10
  have halpha : ∀ x : Char, x.isAlpha = true → blank x = false ∧ sign x = false := by
    intro x hx
    constructor
    · by_contra hcon
      have := blank_iff.1 (by simpa using hcon : blank x = true)
      rcases this with rfl | rfl | rfl <;> revert hx <;> decide
    · by_contra hcon
      have := sign_iff.1 (by simpa using hcon : sign x = true)
      rcases this with rfl | rfl | rfl <;> revert hx <;> decide
  obtain ⟨c0, c1, w', rfl⟩ : ∃ c0 c1 w', w = c0 :: c1 :: w' := by
    rcases w with _ | ⟨c0, _ | ⟨c1, w'⟩⟩
    · simp at h9
    · simp at h9
    · exact ⟨c0, c1, w', rfl⟩
  have hs : Stops blank (c0 :: c1 :: w' ++ d :: x) := by
    rintro e t ⟨⟩
    exact (halpha c0 (h1 c0 (by simp))).1
  obtain ⟨h11, h12⟩ := split_stops (p := blank) (a := [b]) (b := c0 :: c1 :: w' ++ d :: x)
    (by simp [blank_iff.2 hb]) hs
  unfold interpret
  simp only [List.cons_append, List.nil_append] at h11 h12 ⊢
  rw [h11, h12]
  simp only [(halpha c0 (h1 c0 (by simp))).2, Bool.false_eq_true, if_false]
  obtain ⟨h13, h14⟩ := split_stops (p := (!blank ·)) (a := c0 :: c1 :: w') (b := d :: x)
    (fun y hy => by simp [(halpha y (h1 y hy)).1]) (by rintro e t ⟨⟩; simp [blank_iff.2 hd])
  unfold Special.word
  simp only [List.cons_append] at h13 h14 ⊢
  rw [h13, h14, h3]
  simp only [List.nil_append]
  rw [if_neg ha]
  unfold other
  rw [if_neg h4]
  simp only [List.map_cons] at h5 h6 h7 h8 ⊢
  have hdg := h10 (Char.toLower c1) (by simp)
  simp only [hdg, Bool.false_eq_true, and_false, if_false]
  rw [if_neg h5, if_neg h6, if_neg h7, if_neg h8]

example (cfg : Special.Cfg) (h : cfg.annotations = []) : read c!" modifies x %}" = .body c!" modifies x " []
    ∧ interpret cfg c!" modifies x " = .unrecognized := by
  refine ⟨by decide, ?_⟩
  exact C119_blank_clause_unrecognized cfg c!"modifies" c!"QMODIFIES" c!"x " ' ' ' ' (by decide) (by decide)
    (by decide +kernel) (by simp [h])

/-- Settings of flags are all done, in order; from the first word that is not a setting on, all is left out silently. -/
theorem C119_flags (cfg : Special.Cfg) (lead t tail : Text) (es : List Eff) (hn : cfg.nocomments = false)
    (hl : ∀ x ∈ lead, Blank x) (h : Settings cfg.cls tail t es) (ht : ∀ c u, tail = c :: u → ¬ Sign c ∧ ¬ Blank c)
    (hne : ∃ c u, t = c :: u ∧ Sign c) : interpret cfg (lead ++ t) = .flags es := by
  obtain ⟨c, u, rfl, hc⟩ := hne
  have hst : Stops blank tail := by
    intro d v hd
    have := (ht d v hd).2
    rw [← blank_iff] at this
    simpa using this
  have hss : Stops sign tail := by
    intro d v hd
    have := (ht d v hd).1
    rw [← sign_iff] at this
    simpa using this
  have h1 := (split_stops (fun x hx => blank_iff.2 (hl x hx)) (settings_stops h hst)).2
  unfold interpret
  rw [h1]
  simp only [sign_iff.2 hc, if_true, hn]
  rw [flags_settings h hst hss _ (by simp; omega)]

theorem word_flags (cfg : Special.Cfg) (lead s : Text) {es : List Eff} : Special.word cfg lead s ≠ .flags es := by
  unfold Special.word
  simp only
  split
  · simp
  · split_ifs
    · simp
    · exact (other_plain cfg _ _ [] es).1

/-- With the flag `nocomments` they are not. -/
theorem C119_flags_off (cfg : Special.Cfg) (os : Text) (es : List Eff) (hn : cfg.nocomments = true)
    (h : interpret cfg os = .flags es) : es = [] := by
  unfold interpret at h
  split at h
  · split_ifs at h
    · rw [hn, flags_off] at h
      cases h
      rfl
    · exact absurd h (word_flags _ _ _)
  · exact absurd h (word_flags _ _ _)

def exCls (name : Text) : Class :=
  if name = c!"null" ∨ name = c!"only" then .simple else if name = c!"limit" then .value else .invalid

def exSpecial : Special.Cfg := ⟨false, true, false, exCls, [c!"tainted"]⟩

/-- `-null+limit 5 =only junk +null` -/
example : Settings exCls c!"junk +null" c!"-null+limit 5 =only junk +null"
    [.set c!"null" '-', .set c!"limit" '+', .value c!"limit" c!"5", .set c!"only" '='] := by
  refine Settings.simple (c := '-') (name := c!"null") (gap := []) (t := c!"+limit 5 =only junk +null") (by decide)
    (by decide) (by decide) (by decide) (fun _ => Or.inr ⟨'+', _, rfl, by decide⟩) ?_
  refine Settings.value (name := c!"limit") (gap := [' ']) (arg := c!"5") (gap' := [' ']) (t := c!"=only junk +null")
    (by decide) (by decide) (by decide) (by decide) (by decide) (by simp [Space, Blank]) (by decide) (by decide)
    (by decide) ?_
  exact Settings.simple (c := '=') (name := c!"only") (gap := [' ']) (t := c!"junk +null") (by decide) (by decide)
    (by decide) (by decide) (by simp) .done

example : interpret exSpecial c!"-null+limit 5 =only junk +null"
    = .flags [.set c!"null" '-', .set c!"limit" '+', .value c!"limit" c!"5", .set c!"only" '='] := by decide +kernel

/-- An argument after `=` is taken with the `=`, and its last character is lost to the next flag. -/
theorem C119_equals_argument (cls : Text → Class) (name arg t : Text) (c : Char) (n : Nat) (hc : c = '-' ∨ c = '+')
    (hname : ∀ x ∈ name, ¬ Sign x ∧ ¬ Blank x) (hv : cls name = .value) (ha : ∀ x ∈ arg, ¬ Space x)
    (ht : ∀ d u, t = d :: u → Space d) :
    flags false cls (n + 1) (c :: (name ++ '=' :: (arg ++ t)))
      = .set name c :: .value name ('=' :: arg) :: flags false cls n ('=' :: t) := by
  have hc' : Sign c := by unfold Sign; tauto
  have hne : ¬ c = '=' := by rintro rfl; revert hc; decide
  obtain ⟨h1, h2⟩ := split_stops (endsName_false hname) (b := '=' :: (arg ++ t)) (by rintro d u ⟨⟩; decide)
  have hst : Stops (!space ·) t := fun d u h => by simp [space_iff.2 (ht d u h)]
  obtain ⟨h3, h4⟩ := split_stops (p := (!space ·)) (a := '=' :: arg) (b := t)
    (by
      intro x hx
      rcases List.mem_cons.1 hx with rfl | hx
      · decide
      · have := ha x hx
        rw [← space_iff] at this
        simpa using this) hst
  rw [flags, if_pos (sign_iff.2 hc')]
  simp only [h1, h2, hv, Bool.false_eq_true, if_false, if_neg hne]
  have hd : List.dropWhile space ('=' :: (arg ++ t)) = '=' :: arg ++ t :=
    (takeWhile_stops (b := '=' :: (arg ++ t)) (by rintro d u ⟨⟩; decide)).2
  unfold argument
  simp only [hd, h3, h4]
  simp [next, blank]

/-- `+limit=5 -null`: the value is `=5`, and a flag without name is not recognised. -/
example : interpret exSpecial c!"+limit=5 -null "
    = .flags [.set c!"limit" '+', .value c!"limit" c!"=5", .unrecognized [], .set c!"null" '-'] := by decide +kernel

/-- A flag that needs an argument and has none is reported. -/
theorem C119_no_argument (cls : Text → Class) (name gap : Text) (c : Char) (n : Nat) (hc : c = '-' ∨ c = '+')
    (hname : ∀ x ∈ name, ¬ Sign x ∧ ¬ Blank x) (hv : cls name = .value) (hg : ∀ x ∈ gap, Blank x) :
    flags false cls (n + 1) (c :: (name ++ gap)) = [.set name c, .needArg name] := by
  have hc' : Sign c := by unfold Sign; tauto
  have hne : ¬ c = '=' := by rintro rfl; revert hc; decide
  obtain ⟨h1, h2⟩ := split_stops (endsName_false hname) (stops_endsName (t := []) hg (by simp))
  rw [List.append_nil] at h1 h2
  rw [flags, if_pos (sign_iff.2 hc')]
  simp only [h1, h2, hv, Bool.false_eq_true, if_false, if_neg hne]
  have hnil : ∀ n, flags false cls n [] = [] := by intro n; cases n <;> rfl
  cases gap with
  | nil => simp [argument, next, hnil]
  | cons b gap =>
    have := (takeWhile_all (p := space) (a := b :: gap) (b := []) (fun x hx => space_iff.2 (Or.inl (hg x hx)))).2
    simp only [List.append_nil, List.dropWhile_nil] at this
    unfold argument
    simp only [this, List.takeWhile_nil, List.dropWhile_nil, if_true]
    simp [next, blank_iff.2 (hg b (by simp)), hnil]

/-- A word is a token exactly if it is in the table when written in small letters, with or without blanks in front. -/
theorem C119_token (cfg : Special.Cfg) (lead w x tok : Text) (hl : ∀ y ∈ lead, Blank y)
    (hw : ∀ y ∈ w, ¬ Blank y) (hs : ∀ c u, w = c :: u → ¬ Sign c) (hx : ∀ c u, x = c :: u → Blank c) (hne : w ≠ []) :
    interpret cfg (lead ++ (w ++ x)) = .token tok ↔ (w.map Char.toLower, tok) ∈ keyTable := by
  obtain ⟨c, w', rfl⟩ := List.exists_cons_of_ne_nil hne
  have hst : Stops blank (c :: w' ++ x) := by
    rintro e t ⟨⟩
    have := hw c (by simp)
    rw [← blank_iff] at this
    simpa using this
  obtain ⟨h1, h2⟩ := split_stops (fun y hy => blank_iff.2 (hl y hy)) hst
  unfold interpret
  simp only [List.cons_append] at h1 h2 ⊢
  rw [h1, h2]
  have hsg : sign c = false := by
    have := hs c w' rfl
    rw [← sign_iff] at this
    simpa using this
  simp only [hsg, Bool.false_eq_true, if_false]
  have h3 := (split_stops (p := (!blank ·)) (a := c :: w') (b := x)
    (fun y hy => by have := hw y hy; rw [← blank_iff] at this; simpa using this)
    (fun e t h => by simp [blank_iff.2 (hx e t h)])).1
  simp only [List.cons_append] at h3
  unfold Special.word
  simp only [h3]
  cases hk : keyTable.lookup ((c :: w').map Char.toLower) with
  | some tok' =>
    simp only [Result.token.injEq]
    constructor
    · rintro rfl; exact lookup_mem hk
    · intro h
      rw [mem_lookup keyTable_nodup h] at hk
      cases hk
      rfl
  | none =>
    simp only
    constructor
    · intro h
      exfalso
      revert h
      split_ifs
      · simp
      · exact (other_plain cfg _ _ tok []).2.1
    · intro h
      rw [mem_lookup keyTable_nodup h] at hk
      cases hk

example : interpret exSpecial c!" NotNull " = .token c!"QNOTNULL" ∧ interpret exSpecial c!"l_fallthrou" = .token c!"QFALLTHROUGH" := by
  decide +kernel

/-- The entries of the table that have capital letters are never found. -/
theorem C119_dead_entries (cfg : Special.Cfg) (os tok : Text)
    (h : tok ∈ [c!"QSETBUFFERSIZE", c!"QTESTINRANGE", c!"QMAXSET", c!"QMAXREAD"]) : interpret cfg os ≠ .token tok := by
  have htab : ∀ p ∈ keyTable, p.2 ∈ [c!"QSETBUFFERSIZE", c!"QTESTINRANGE", c!"QMAXSET", c!"QMAXREAD"] →
      ∃ c ∈ p.1, c.isUpper = true := by decide +kernel
  have key : ∀ lead s, Special.word cfg lead s ≠ .token tok := by
    intro lead s
    unfold Special.word
    simp only
    split
    · rename_i tok' hk
      intro h'
      cases h'
      obtain ⟨c, hc, hu⟩ := htab _ (lookup_mem hk) h
      rw [toLower_lower _ c hc] at hu
      cases hu
    · split_ifs
      · simp
      · exact (other_plain cfg _ _ tok []).2.1
  unfold interpret
  split
  · split_ifs
    · simp
    · exact key _ _
  · exact key _ _

/-- An annotation that has been declared is not recognised after a blank, though others are. -/
theorem C119_annotation_blank (cfg : Special.Cfg) (ha : ∀ a ∈ cfg.annotations, ∀ c ∈ a, ¬ Blank c) (b : Char)
    (hb : Blank b) (os name : Text) : interpret cfg (b :: os) ≠ .annotation name := by
  have key : ∀ s, Special.word cfg ((b :: os).takeWhile blank) s ≠ .annotation name := by
    intro s
    have hnot : ∀ w, (b :: os).takeWhile blank ++ w ∉ cfg.annotations := by
      intro w hw
      exact ha _ hw b (by simp [blank_iff.2 hb]) hb
    unfold Special.word
    simp only
    split
    · simp
    · rw [if_neg (hnot _)]
      exact (other_plain cfg _ _ name []).2.2
  unfold interpret
  split
  · split_ifs
    · simp
    · exact key _
  · exact key _

example : interpret exSpecial c!"tainted " = .annotation c!"tainted" ∧ interpret exSpecial c!" tainted " = .unrecognized
    ∧ interpret exSpecial c!" null " = .token c!"QNULL" := by decide +kernel

/-- The types in an access comment are all those in the list, if commas or blanks are between them. -/
theorem C119_access (cfg : Special.Cfg) (t : Text) (ns : List Text) (d : Char) (hd : Blank d) (h : Names t ns)
    (hn : cfg.nocomments = false) (ha : cfg.noaccess = false) (hann : c!"access" ∉ cfg.annotations) :
    interpret cfg (c!"access" ++ d :: t) = .access ns := by
  obtain ⟨h1, h2⟩ := split_stops (p := (!blank ·)) (a := c!"access") (b := d :: t) (by decide)
    (by rintro e u ⟨⟩; simp [blank_iff.2 hd])
  obtain ⟨h3, h4⟩ := takeWhile_stops (p := blank) (b := c!"access" ++ d :: t) (by rintro e u ⟨⟩; decide)
  have hk : keyTable.lookup (c!"access".map Char.toLower) = none := by decide +kernel
  unfold interpret
  rw [h3, h4]
  simp only [List.cons_append, List.nil_append] at h1 h2 ⊢
  simp only [show sign 'a' = false by decide, Bool.false_eq_true, if_false]
  unfold Special.word
  simp only [h1, h2, hk, List.nil_append, if_neg hann]
  rw [show List.map Char.toLower c!"access" = c!"access" by decide]
  unfold other
  rw [if_neg (by decide)]
  simp only [List.drop_one, List.tail_cons]
  rw [types_names h _ (by omega)]
  simp [hn, ha]

/-- What follows the end of a line, or a tab, after the name of a type is left out silently. -/
theorem C119_types_cut (gap name rest : Text) (c : Char) (n : Nat) (hg : ∀ x ∈ gap, Blank x) (hne : name ≠ [])
    (hn : ∀ x ∈ name, ¬ Blank x ∧ x ≠ ',') (hc : c = '\t' ∨ c = '\n') :
    types (n + 1) (gap ++ (name ++ c :: rest)) = [name] := by
  rw [types_step hg hne hn (r := c :: rest) (by rintro d u ⟨⟩; rcases hc with rfl | rfl <;> decide) n]
  have : c ≠ ',' ∧ c ≠ ' ' := by rcases hc with rfl | rfl <;> decide
  simp only
  rw [if_pos this]

/-- All types that are listed get accessible. -/
def C119_access_full : Prop :=
  ∀ (cfg : Special.Cfg) (a b : Text) (c : Char), cfg.nocomments = false → cfg.noaccess = false → cfg.annotations = [] →
    (∀ x ∈ a, x.isAlpha = true) → (∀ x ∈ b, x.isAlpha = true) → a ≠ [] → b ≠ [] → Blank c →
      interpret cfg (c!"access " ++ a ++ c :: b) = .access [a, b]

theorem C119_access_full_is_false : ¬ C119_access_full := by
  intro h
  exact absurd (h ⟨false, true, false, exCls, []⟩ c!"s" c!"t" '\n' rfl rfl rfl (by decide) (by decide) (by decide)
    (by decide) (by decide)) (by decide +kernel)

theorem C119_noaccess (cfg : Special.Cfg) (t : Text) (ns : List Text) (d : Char) (hd : Blank d) (h : Names t ns)
    (hn : cfg.nocomments = false) (ha : cfg.noaccess = false) (hann : c!"noaccess" ∉ cfg.annotations) :
    interpret cfg (c!"noaccess" ++ d :: t) = .noaccess ns := by
  have := interpret_word (cfg := cfg) (lead := []) (w := c!"noaccess") (x := d :: t) (by simp) (by decide)
    (by rintro c u ⟨⟩; decide) (by rintro c u ⟨⟩; exact hd) (by decide) (by decide +kernel) hann
  rw [List.nil_append] at this
  rw [this, show List.map Char.toLower c!"noaccess" = c!"noaccess" by decide]
  unfold other
  rw [if_neg (by decide)]
  simp only [List.drop_one, List.tail_cons]
  rw [types_names h _ (by omega)]
  simp [hn, ha]

/-- With nocomments or noaccess nothing is done. -/
theorem C119_access_off (cfg : Special.Cfg) (os : Text) (ns : List Text)
    (h : interpret cfg os = .access ns ∨ interpret cfg os = .noaccess ns) :
    cfg.nocomments = false ∧ cfg.noaccess = false := by
  have key : ∀ lead s, Special.word cfg lead s = .access ns ∨ Special.word cfg lead s = .noaccess ns →
      cfg.nocomments = false ∧ cfg.noaccess = false := by
    intro lead s
    unfold Special.word other suppress
    simp only
    repeat' split
    all_goals try simp
    all_goals tauto
  revert h
  unfold interpret
  split
  · split_ifs
    · simp
    · exact key _ _
  · exact key _ _

/-- `i` and `t` with a number suppress messages for as many lines as the number says, whatever follows the number in the
word; without a number, for the whole line. -/
theorem C119_suppress_line (cfg : Special.Cfg) (lead ds junk x : Text) (c : Char) (hl : ∀ y ∈ lead, Blank y)
    (hc : c ∈ ['i', 'I', 't', 'T']) (hd : ∀ y ∈ ds, y.isDigit = true) (hne : ds ≠ [])
    (hj : ∀ y ∈ junk, ¬ Blank y) (hjd : ∀ e u, junk = e :: u → e.isDigit = false)
    (hx : ∀ e u, x = e :: u → Blank e) (ha : lead ++ c :: (ds ++ junk) ∉ cfg.annotations) :
    interpret cfg (lead ++ (c :: (ds ++ junk) ++ x))
      = if cfg.nocomments = false ∧ (c ∈ ['i', 'I'] ∨ cfg.tmpcomments = true) then .suppressLine (some (decimal ds))
        else .nothing := by
  obtain ⟨d, ds, rfl⟩ := List.exists_cons_of_ne_nil hne
  have hdig : ∀ y : Char, y.isDigit = true → y.toLower = y ∧ ¬ Blank y := by
    intro y hy
    constructor
    · unfold Char.toLower
      rw [dif_neg]
      simp only [Char.isDigit, decide_eq_true_eq, ge_iff_le, UInt32.le_iff_toNat_le, Bool.and_eq_true] at hy ⊢
      have h1 : 'A'.val.toNat = 65 := by decide
      have h2 : '9'.val.toNat = 57 := by decide
      omega
    · rintro (rfl | rfl | rfl) <;> revert hy <;> decide
  have hcl : c.toLower = 'i' ∨ c.toLower = 't' := by
    simp only [List.mem_cons, List.not_mem_nil, or_false] at hc
    rcases hc with rfl | rfl | rfl | rfl <;> decide
  have hcb : ¬ Blank c ∧ ¬ Sign c := by
    simp only [List.mem_cons, List.not_mem_nil, or_false] at hc
    rcases hc with rfl | rfl | rfl | rfl <;> decide
  have htab : ∀ p ∈ keyTable, ∀ a b r, p.1 = a :: b :: r → b.isDigit = false := by
    have : ∀ p ∈ keyTable, (match p.1 with | _ :: b :: _ => b.isDigit | _ => false) = false := by decide +kernel
    intro p hp a b r hr
    have := this p hp
    rw [hr] at this
    exact this
  have hjl : ∀ e u, junk.map Char.toLower = e :: u → e.isDigit = false := by
    intro e u h
    cases junk with
    | nil => cases h
    | cons a junk =>
      simp only [List.map_cons, List.cons.injEq] at h
      obtain ⟨rfl, -⟩ := h
      have hA := hjd a junk rfl
      by_contra hcon
      simp only [Bool.not_eq_false] at hcon
      unfold Char.toLower at hcon
      split_ifs at hcon with hup
      · simp only [Char.isDigit, decide_eq_true_eq, ge_iff_le, UInt32.le_iff_toNat_le, Bool.and_eq_true] at hcon hup
        have e : (a.val + ('a'.val - 'A'.val)).toNat = a.val.toNat + 32 := by
          rw [UInt32.toNat_add]
          have : ('a'.val - 'A'.val).toNat = 32 := by decide
          rw [this]
          have : 'Z'.val.toNat = 90 := by decide
          omega
        rw [e] at hcon
        have h1 : 'A'.val.toNat = 65 := by decide
        have h2 : '9'.val.toNat = 57 := by decide
        omega
      · rw [hA] at hcon
        cases hcon
  rw [interpret_word hl (w := c :: (d :: ds ++ junk)) ?_ ?_ hx (by simp) ?_ ha]
  · have hm : (c :: (d :: ds ++ junk)).map Char.toLower = c.toLower :: d :: (ds ++ junk.map Char.toLower) := by
      have : ds.map Char.toLower = ds := by
        rw [List.map_congr_left (g := id) (fun y hy => (hdig y (hd y (by simp [hy]))).1)]
        simp
      simp [this, (hdig d (hd d (by simp))).1]
    rw [hm]
    unfold other
    have hdd := hd d (by simp)
    rw [if_neg (by
      intro h
      simp only [List.cons.injEq] at h
      rw [h.2.1] at hdd
      revert hdd; decide)]
    simp only [hcl, hdd, and_self, if_true]
    have h3 := (split_stops (p := Char.isDigit) (a := ds) (b := junk.map Char.toLower)
      (fun y hy => hd y (by simp [hy])) hjl).1
    rw [h3, number_eq]
    unfold suppress
    simp only [List.mem_cons, List.not_mem_nil, or_false] at hc
    have e : 'i'.toLower = 'i' ∧ 'I'.toLower = 'i' ∧ 't'.toLower = 't' ∧ 'T'.toLower = 't' := by decide
    rcases hc with rfl | rfl | rfl | rfl <;> simp [e]
  · intro y hy
    rcases List.mem_cons.1 hy with rfl | hy
    · exact hcb.1
    · rcases List.mem_append.1 hy with hy | hy
      · exact (hdig y (hd y hy)).2
      · exact hj y hy
  · rintro e u ⟨⟩
    exact hcb.2
  · intro p hp h
    have := htab p hp _ _ _ (by rw [h]; rfl)
    rw [(hdig d (hd d (by simp))).1, hd d (by simp)] at this
    cases this

example : interpret exSpecial c!" t25x y" = .suppressLine (some 25) ∧ interpret { exSpecial with tmpcomments := false } c!"T7" = .nothing := by
  decide +kernel

/-- Messages are suppressed from here on exactly if the word is ignore, and no longer if it is end. -/
theorem C119_suppress_region (cfg : Special.Cfg) (lead w x : Text) (hl : ∀ y ∈ lead, Blank y)
    (hw : w.map Char.toLower = c!"ignore" ∨ w.map Char.toLower = c!"end") (hb : ∀ y ∈ w, ¬ Blank y ∧ ¬ Sign y)
    (hx : ∀ c u, x = c :: u → Blank c) (ha : lead ++ w ∉ cfg.annotations) :
    interpret cfg (lead ++ (w ++ x))
      = if cfg.nocomments = true then .nothing else if w.map Char.toLower = c!"end" then .suppressOff else .suppressOn := by
  have hne : w ≠ [] := by rintro rfl; revert hw; decide
  rw [interpret_word hl (fun y hy => (hb y hy).1) (fun c u h => (hb c (by simp [h])).2) hx hne ?_ ha]
  · rcases hw with hw | hw <;> rw [hw] <;> unfold other
    · rw [if_pos rfl, if_neg (by decide : ¬ c!"ignore" = c!"end")]
    · rw [if_neg (by decide)]
      simp
  · intro p hp h
    have : ∀ p ∈ keyTable, p.1 ≠ c!"ignore" ∧ p.1 ≠ c!"end" := by decide +kernel
    have := this p hp
    rw [h] at this
    tauto

/-- a blank in front of the comma gives a name that is empty -/
example : interpret exSpecial c!"access s, t u " = .access [c!"s", c!"t", c!"u"]
    ∧ interpret exSpecial c!"access s,\n t\n u " = .access [c!"s", c!"t"]
    ∧ interpret exSpecial c!"access s , t" = .access [c!"s", [], c!"t"]
    ∧ interpret exSpecial c!"i12 " = .suppressLine (some 12) ∧ interpret exSpecial c!"i" = .suppressLine none
    ∧ interpret exSpecial c!"End " = .suppressOff := by decide +kernel

end Splint
