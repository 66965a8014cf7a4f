import Verif.Data.MeshExData
import Verif.Data.TextLaws
/-!
# Lemmas about MeshEx data
-/

namespace Verif
namespace MeshExData

/-! ## Entries -/

theorem positions_get (p : α → Bool) (f : Nat → Option β) : ∀ (l : List α) (n : Nat) (r : List β),
    l.length = r.length → (∀ i, f (n + i) = r[i]?) →
    (((l.zipIdx n).filter fun x => p x.1).map (·.2)).filterMap f = ((l.zip r).filter fun x => p x.1).map (·.2)
  | [], _, [], _, _ => rfl
  | x :: l, n, y :: r, hl, hf => by
    have ih := positions_get p f l (n + 1) r (by simpa using hl) (fun i => by
      have := hf (i + 1)
      rw [List.getElem?_cons_succ] at this
      rw [← this]
      congr 1
      omega)
    have h0 : f n = some y := by simpa using hf 0
    simp only [List.zipIdx_cons, List.filter_cons, List.zip_cons_cons]
    cases p x with
    | true => simp only [if_true, List.map_cons, List.filterMap_cons, h0, ih]
    | false => simpa using ih

theorem positions_filterMap (p : α → Bool) (l : List α) (r : List β) (h : l.length = r.length) :
    (positions p l).filterMap (fun i => r[i]?) = ((l.zip r).filter fun x => p x.1).map (·.2) :=
  positions_get p _ l 0 r h (fun i => by rw [Nat.zero_add])

/-- Lists built in parallel, zipped. -/
theorem flatMap_zip {f : α → List β} {g : α → List γ} (h : ∀ a, (f a).length = (g a).length) :
    ∀ l : List α, (l.flatMap f).zip (l.flatMap g) = l.flatMap fun a => (f a).zip (g a)
  | [] => rfl
  | a :: l => by rw [List.flatMap_cons, List.flatMap_cons, List.zip_append (h a), flatMap_zip h l, List.flatMap_cons]

theorem flatMap_length_eq {f : α → List β} {g : α → List γ} (h : ∀ a, (f a).length = (g a).length) (l : List α) :
    (l.flatMap f).length = (l.flatMap g).length := by
  induction l with
  | nil => rfl
  | cons a l ih => rw [List.flatMap_cons, List.flatMap_cons, List.length_append, List.length_append, h, ih]

theorem zipIdx_flatMap_fst {g : α → List γ} : ∀ (l : List α) (n : Nat),
    (l.zipIdx n).flatMap (fun x => g x.1) = l.flatMap g
  | [], _ => rfl
  | x :: l, n => by simp [zipIdx_flatMap_fst l]

/-- Selecting the elements made from index `i`. -/
theorem select_index {g : α → List γ} {key : Nat → κ} {is : κ → Nat → Bool} :
    ∀ (l : List α) (n i : Nat), (∀ j, n ≤ j → j < n + l.length → (is (key j) i = true ↔ j = i)) →
    ((l.zipIdx n).flatMap fun x => (g x.1).map fun y => (key x.2, y)).filter (fun z => is z.1 i) =
      if n ≤ i then ((l[i - n]?).map g).getD [] |>.map fun y => (key i, y) else []
  | [], n, i, _ => by simp
  | x :: l, n, i, h => by
    have ih := select_index (g := g) l (n + 1) i (fun j h1 h2 => h j (by omega) (by simp only [List.length_cons]; omega))
    have hn := h n (Nat.le_refl _) (by simp only [List.length_cons]; omega)
    rw [List.zipIdx_cons, List.flatMap_cons, List.filter_append, ih]
    by_cases hi : n = i
    · subst hi
      have : is (key n) n = true := hn.mpr rfl
      simp only [Nat.le_refl, if_true, Nat.sub_self, List.getElem?_cons_zero, Option.map_some, Option.getD_some]
      rw [if_neg (by omega), List.append_nil, List.filter_eq_self]
      intro z hz
      obtain ⟨y, _, rfl⟩ := List.mem_map.mp hz
      exact this
    · have hf : is (key n) i = false := by
        cases hb : is (key n) i with
        | false => rfl
        | true => exact absurd (hn.mp hb) hi
      have : ((g x).map fun y => (key n, y)).filter (fun z => is z.1 i) = [] := by
        rw [List.filter_eq_nil_iff]
        intro z hz
        obtain ⟨y, _, rfl⟩ := List.mem_map.mp hz
        simp [hf]
      simp only [this, List.nil_append]
      by_cases hle : n ≤ i
      · rw [if_pos (by omega), if_pos hle]
        have : i - n = (i - (n + 1)) + 1 := by omega
        rw [this, List.getElem?_cons_succ]
      · rw [if_neg (by omega), if_neg hle]

theorem flags_round_trip (f : EntryFlags) : EntryFlags.ofRaw f.toRaw = f := by
  cases f with
  | mk a b => cases a <;> cases b <;> rfl

theorem nameText_fromBytes (s : String) : nameText (some (.fromBytes (textBytes s))) = cutNul s := by
  simp [nameText, toStr_fromBytes]

/-! ## Searching text -/

theorem find_none {p : List Char} (hp : p ≠ []) : ∀ {s : List Char}, find p s = none ↔ ¬p <:+: s
  | [] => by simp [find, hp]
  | c :: cs => by
    have ih := find_none hp (s := cs)
    rw [find]
    split
    · rename_i h
      have := (List.isPrefixOf_iff_prefix.mp h).isInfix
      simp [this]
    · rename_i h
      have hpre : ¬p <+: c :: cs := fun h' => h (List.isPrefixOf_iff_prefix.mpr h')
      rw [Option.map_eq_none_iff, ih, List.infix_cons_iff]
      simp [hpre]

/-- The place found: the rest starts with the pattern, and no place before does. -/
theorem find_some {p : List Char} : ∀ {s : List Char} {i : Nat}, find p s = some i →
    p <+: s.drop i ∧ (∀ j, j < i → ¬p <+: s.drop j) ∧ i ≤ s.length
  | [], i, h => by
    rw [find] at h
    split at h
    · rename_i hp
      cases h
      subst hp
      exact ⟨List.prefix_rfl, fun j hj => absurd hj (Nat.not_lt_zero _), Nat.le_refl _⟩
    · cases h
  | c :: cs, i, h => by
    rw [find] at h
    split at h
    · rename_i hp
      cases h
      exact ⟨List.isPrefixOf_iff_prefix.mp hp, fun j hj => absurd hj (Nat.not_lt_zero _), Nat.zero_le _⟩
    · rename_i hp
      rw [Option.map_eq_some_iff] at h
      obtain ⟨i', hi, rfl⟩ := h
      obtain ⟨h1, h2, h3⟩ := find_some hi
      refine ⟨h1, fun j hj => ?_, by simp only [List.length_cons]; omega⟩
      cases j with
      | zero => exact fun h' => hp (List.isPrefixOf_iff_prefix.mpr h')
      | succ j => exact h2 j (by omega)

/-- An occurrence in a prefix is an occurrence at a place before the end of the prefix. -/
theorem infix_take {p s : List Char} {n : Nat} (hp : p ≠ []) (h : p <:+: s.take n) : ∃ j, j < n ∧ p <+: s.drop j := by
  obtain ⟨a, b, hab⟩ := h
  refine ⟨a.length, ?_, ?_⟩
  · have hl := congrArg List.length hab
    have : 0 < p.length := List.length_pos_iff.mpr hp
    simp only [List.length_append, List.length_take] at hl
    omega
  · have : s = a ++ p ++ b ++ s.drop n := by rw [hab, List.take_append_drop]
    rw [this]
    simp only [List.append_assoc]
    rw [List.drop_left]
    exact List.prefix_append _ _

/-- The last place of a pattern at the end of the text. -/
theorem rfind_suffix {p : List Char} (hp : p ≠ []) : ∀ (a : List Char), rfind p (a ++ p) = some a.length
  | [] => by
    have hnone : ∀ q : List Char, q.length < p.length → rfind p q = none := by
      intro q
      induction q with
      | nil => intro _; simp [rfind, hp]
      | cons c q ih =>
        intro h
        rw [rfind, ih (by simp only [List.length_cons] at h; omega)]
        rw [if_neg]
        intro h'
        have := (List.isPrefixOf_iff_prefix.mp h').length_le
        omega
    cases p with
    | nil => exact absurd rfl hp
    | cons c p =>
      rw [List.nil_append, rfind, hnone p (by simp)]
      rw [if_pos (List.isPrefixOf_iff_prefix.mpr List.prefix_rfl)]
      rfl
  | c :: a => by rw [List.cons_append, rfind, rfind_suffix hp a, List.length_cons]

/-! ## Runs -/

theorem groupBy_flatten [DecidableEq κ] (key : α → κ) : ∀ l : List α, (groupBy key l).flatMap (·.2) = l
  | [] => rfl
  | x :: xs => by
    have ih := groupBy_flatten key xs
    rw [groupBy]
    split
    · rename_i h
      rw [h] at ih
      simp at ih
      simp [← ih]
    · rename_i k ys rest h
      rw [h] at ih
      split
      · simpa using ih
      · simpa using ih

theorem groupBy_key [DecidableEq κ] (key : α → κ) : ∀ l : List α, ∀ g ∈ groupBy key l,
    g.2 ≠ [] ∧ ∀ x ∈ g.2, key x = g.1
  | [] => by simp [groupBy]
  | x :: xs => by
    have ih := groupBy_key key xs
    rw [groupBy]
    split
    · simp
    · rename_i k ys rest h
      rw [h] at ih
      split
      · rename_i hk
        intro g hg
        cases List.mem_cons.mp hg with
        | inl he =>
          subst he
          refine ⟨by simp, fun y hy => ?_⟩
          cases List.mem_cons.mp hy with
          | inl he => rw [he, hk]
          | inr hm => exact (ih _ List.mem_cons_self).2 y hm
        | inr hm => exact ih g (List.mem_cons_of_mem _ hm)
      · intro g hg
        cases List.mem_cons.mp hg with
        | inl he => subst he; simp
        | inr hm => exact ih g hm

theorem groupBy_neighbours [DecidableEq κ] (key : α → κ) : ∀ (l : List α) (i : Nat) (a b : κ × List α),
    (groupBy key l)[i]? = some a → (groupBy key l)[i + 1]? = some b → a.1 ≠ b.1
  | [], i, a, b, h, _ => by simp [groupBy] at h
  | x :: xs, i, a, b, h, h' => by
    have ih := groupBy_neighbours key xs
    rw [groupBy] at h h'
    split at h
    · rename_i hg
      simp [hg] at h'
    · rename_i k ys rest hg
      simp only [hg] at h' ih
      split at h
      · rename_i hk
        rw [if_pos hk] at h'
        cases i with
        | zero =>
          cases h
          exact ih 0 (k, ys) b rfl h'
        | succ i => exact ih (i + 1) a b h h'
      · rename_i hk
        rw [if_neg hk] at h'
        cases i with
        | zero =>
          cases h
          cases h'
          exact hk
        | succ i => exact ih i a b h h'

end MeshExData
end Verif
