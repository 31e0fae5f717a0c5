import Verif.Spec.Mapping
/-!
# Mappings from types to sorts (C167)
-/
namespace Splint.MappingProps
open Splint.Mapping Splint.MappingSpec

/-- the array has its size -/
def Ok (t : M) : Prop := t.buckets.length = mappingSize + 1

theorem mmash_lt {t : M} (h : Ok t) (d : Sym) : mmash d < t.buckets.length := by
  rw [h]
  exact Nat.lt_succ_of_le Nat.and_le_right

theorem create_ok : Ok create := by simp [Ok, create]

theorem bind_ok {t : M} (h : Ok t) (d r : Sym) :
    ∃ t', Mapping.bind t d r = some t' ∧ Ok t' ∧ t'.count = t.count + 1 ∧
      ∀ n, Mapping.find t' n = if n = d then some r else Mapping.find t n := by
  have hd := mmash_lt h d
  refine ⟨⟨t.count + 1, t.buckets.set (mmash d) ((d, r) :: t.buckets[mmash d])⟩,
    by simp only [Mapping.bind, List.getElem?_eq_getElem hd, Option.map_some], by simpa [Ok] using h, rfl, ?_⟩
  intro n
  simp only [Mapping.find]
  by_cases hm : mmash d = mmash n
  · rw [← hm, List.getElem?_set_self hd, List.getElem?_eq_getElem hd]
    by_cases hn : n = d
    · simp [scan, hn]
    · simp [scan, hn, Ne.symm hn]
  · rw [List.getElem?_set_ne hm]
    have hn : n ≠ d := fun h => hm (h ▸ rfl)
    rw [if_neg hn]

theorem all_ok {t : M} (h : Ok t) (f : Nat → Nat) (hf : ∀ n, Mapping.find t n = some (f n)) (bs : List (Sym × Sym)) :
    ∃ t', bindAll t bs = some t' ∧ t'.count = t.count + bs.length ∧
      ∀ n, Mapping.find t' n = some (meaning f bs n) := by
  induction bs generalizing t f with
  | nil => exact ⟨t, rfl, rfl, hf⟩
  | cons b bs ih =>
    obtain ⟨t1, h1, ok1, c1, f1⟩ := bind_ok h b.1 b.2
    obtain ⟨t2, h2, c2, f2⟩ := ih ok1 (fun n => if n = b.1 then b.2 else f n) (by
      intro n; rw [f1, hf]; split_ifs <;> rfl)
    exact ⟨t2, by simp only [bindAll, h1, Option.bind_some, h2], by rw [c2, c1, List.length_cons]; omega, f2⟩

/-- **C167** A mapping is the function that its bindings make of one that is undefined everywhere; no access is outside
of the array, and the bindings are counted. -/
theorem C167_function (bs : List (Sym × Sym)) :
    ∃ t, bindAll create bs = some t ∧ t.count = bs.length ∧
      ∀ n, Mapping.find t n = some (meaning (fun _ => 0) bs n) := by
  obtain ⟨t, h1, h2, h3⟩ := all_ok create_ok (fun _ => 0) (by
    intro n
    have hn := mmash_lt create_ok n
    simp only [Mapping.find, List.getElem?_eq_getElem hn, Option.map_some]
    simp [create, scan, undefined]) bs
  exact ⟨t, h1, by rw [h2]; simp [create], h3⟩

/-- three bindings in the same bucket, two of them of the same symbol -/
example : ((bindAll create [(1, 10), (129, 20), (1, 30)]).bind fun t => Mapping.find t 1) = some 30 ∧
    ((bindAll create [(1, 10), (129, 20), (1, 30)]).bind fun t => Mapping.find t 129) = some 20 ∧
    ((bindAll create [(1, 10), (129, 20), (1, 30)]).bind fun t => Mapping.find t 257) = some 0 := by decide

theorem meaning_append (f : Nat → Nat) (as bs : List (Nat × Nat)) :
    meaning f (as ++ bs) = meaning (meaning f as) bs := by
  induction as generalizing f with
  | nil => rfl
  | cons a as ih => exact ih _

theorem meaning_none (f : Nat → Nat) (bs : List (Nat × Nat)) (n : Nat) (h : ∀ b ∈ bs, b.1 ≠ n) :
    meaning f bs n = f n := by
  induction bs generalizing f with
  | nil => rfl
  | cons b bs ih =>
    rw [meaning, ih _ (fun b hb => h b (by simp [hb])), if_neg (Ne.symm (h b (by simp)))]

/-- **C167** A sort is translated to the one it was bound to last, and else to itself. -/
theorem C167_translate (bs : List (Sym × Sym)) (t : M) (h : bindAll create bs = some t) (s : Sym) :
    (∀ as cs r, bs = as ++ (s, r) :: cs → (∀ b ∈ cs, b.1 ≠ s) → r ≠ 0 → translateSort t s = some r) ∧
    ((∀ b ∈ bs, b.1 ≠ s) → translateSort t s = some s) := by
  obtain ⟨t', h', _, hf⟩ := C167_function bs
  rw [h] at h'
  cases h'
  simp only [translateSort, hf, Option.map_some]
  constructor
  · rintro as cs r rfl hc hr
    rw [meaning_append, meaning, meaning_none _ _ _ hc, if_pos rfl]
    simp [undefined, hr]
  · intro hn
    rw [meaning_none _ _ _ hn]
    simp [undefined]

example : ((bindAll create [(1, 10), (129, 20), (1, 30)]).bind fun t => translateSort t 1) = some 30 ∧
    ((bindAll create [(1, 10), (129, 20), (1, 30)]).bind fun t => translateSort t 257) = some 257 := by decide

/-- **C167** A sort bound to the undefined one is translated to itself, even if it was bound to another before. -/
theorem C167_undefined (as cs : List (Sym × Sym)) (s : Sym) (t : M)
    (h : bindAll create (as ++ (s, 0) :: cs) = some t) (hc : ∀ b ∈ cs, b.1 ≠ s) : translateSort t s = some s := by
  obtain ⟨t', h', _, hf⟩ := C167_function (as ++ (s, 0) :: cs)
  rw [h] at h'
  cases h'
  simp only [translateSort, hf, Option.map_some]
  rw [meaning_append, meaning, meaning_none _ _ _ hc, if_pos rfl]
  simp [undefined]

example : ((bindAll create [(1, 10), (1, 0)]).bind fun t => translateSort t 1) = some 1 := by decide

end Splint.MappingProps
