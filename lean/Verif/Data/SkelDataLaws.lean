import Verif.Data.SkelData
import Verif.Data.TextLaws
/-!
# Lemmas about skeletons
-/

namespace Verif
namespace SkelData

/-! ## Following parents -/

/-- The index reached from `start` by following parents `k` times. -/
def follow (bones : List BoneData) (start : Option Nat) : Nat → Option Nat
  | 0 => start
  | k + 1 => (follow bones start k).bind fun i => (bones[i]?).bind (·.parent_index)

/-- The bones met when following parents from `start` until there is none. -/
inductive Chain (bones : List BoneData) : Option Nat → List BoneData → Prop
  | root : Chain bones none []
  | missing {i} : bones[i]? = none → Chain bones (some i) []
  | step {i b l} : bones[i]? = some b → Chain bones b.parent_index l → Chain bones (some i) (b :: l)

theorem follow_succ' (bones : List BoneData) (start : Option Nat) (k : Nat) :
    follow bones start (k + 1) = follow bones (start.bind fun i => (bones[i]?).bind (·.parent_index)) k := by
  induction k with
  | zero => rfl
  | succ k ih => rw [follow, ih]; rfl

theorem follow_none_mono {bones : List BoneData} {start : Option Nat} {k : Nat} (h : follow bones start k = none) :
    ∀ n, follow bones start (k + n) = none
  | 0 => h
  | n + 1 => by rw [← Nat.add_assoc, follow, follow_none_mono h n]; rfl

theorem Chain.ends {bones : List BoneData} {start : Option Nat} {l : List BoneData} (h : Chain bones start l) :
    ∃ k, follow bones start k = none := by
  induction h with
  | root => exact ⟨0, rfl⟩
  | missing h => exact ⟨1, by simp [follow, h]⟩
  | step h _ ih =>
    obtain ⟨k, hk⟩ := ih
    exact ⟨k + 1, by rw [follow_succ']; simpa [h] using hk⟩

theorem follow_shift {bones : List BoneData} {start : Option Nat} {j k : Nat}
    (h : follow bones start j = follow bones start k) : ∀ n, follow bones start (j + n) = follow bones start (k + n)
  | 0 => h
  | n + 1 => by rw [← Nat.add_assoc, ← Nat.add_assoc, follow, follow, follow_shift h n]

/-- A repeated index means that the walk never ends. -/
theorem follow_repeat {bones : List BoneData} {start : Option Nat} {i j k : Nat} (hjk : j < k)
    (hj : follow bones start j = some i) (hk : follow bones start k = some i) (n : Nat) :
    follow bones start n ≠ none := by
  have hp : ∀ m, follow bones start (j + m * (k - j)) = some i := by
    intro m
    induction m with
    | zero => simpa using hj
    | succ m ih =>
      have := follow_shift (hj.trans hk.symm) (m * (k - j))
      have he : j + (m + 1) * (k - j) = k + m * (k - j) := by rw [Nat.succ_mul]; omega
      rw [he, ← this, ih]
  intro hn
  have hle : n ≤ j + n * (k - j) := by
    have : n * 1 ≤ n * (k - j) := Nat.mul_le_mul_left n (by omega)
    omega
  have h1 := follow_none_mono hn (j + n * (k - j) - n)
  rw [Nat.add_sub_cancel' hle, hp] at h1
  cases h1

theorem Chain.unique {bones : List BoneData} {start : Option Nat} {l l' : List BoneData} (h : Chain bones start l)
    (h' : Chain bones start l') : l = l' := by
  induction h generalizing l' with
  | root => cases h'; rfl
  | missing h =>
    cases h' with
    | missing _ => rfl
    | step hb _ => rw [h] at hb; cases hb
  | step hb _ ih =>
    cases h' with
    | missing h => rw [h] at hb; cases hb
    | step hb' hc =>
      rw [hb] at hb'
      cases hb'
      rw [ih hc]

/-! ## The loop -/

/-- A list of different numbers below `n` has at most `n` elements. -/
theorem nodup_length_le : ∀ {n : Nat} {l : List Nat}, l.Nodup → (∀ x ∈ l, x < n) → l.length ≤ n
  | 0, l, _, h => by
    cases l with
    | nil => simp
    | cons x l => exact absurd (h x List.mem_cons_self) (Nat.not_lt_zero _)
  | n + 1, l, hd, h => by
    have := nodup_length_le (n := n) (hd.erase n) (fun x hx => by
      have h1 := h x (List.mem_of_mem_erase hx)
      have h2 : x ≠ n := fun e => by subst e; exact (hd.not_mem_erase) hx
      omega)
    have h3 : l.length ≤ (l.erase n).length + 1 := by
      rw [List.length_erase]
      split <;> omega
    omega

/-- The loop ends within the given number of rounds. -/
theorem worldLoop_ends (O : MatOps Matrix4x4) (bones : List BoneData) : ∀ (fuel : Nat) (bone : BoneData)
    (t : Matrix4x4) (visited : List Nat), visited.Nodup → (∀ x ∈ visited, x < bones.length) →
    bones.length + 1 ≤ fuel + visited.length → worldLoop O bones fuel bone t visited ≠ none
  | 0, _, _, visited, hd, hv, hf => by
    have := nodup_length_le hd hv
    omega
  | fuel + 1, bone, t, visited, hd, hv, hf => by
    rw [worldLoop]
    split
    · simp
    · rename_i p _
      split
      · simp
      · rename_i hp
        split
        · rename_i parent hg
          have hlt : p < bones.length := by
            obtain ⟨h, _⟩ := List.getElem?_eq_some_iff.mp hg
            exact h
          refine worldLoop_ends O bones fuel parent _ _ (List.nodup_cons.mpr ⟨hp, hd⟩) ?_ ?_
          · intro x hx
            cases List.mem_cons.mp hx with
            | inl h => rw [h]; exact hlt
            | inr h => exact hv x h
          · simp only [List.length_cons]; omega
        · simp

/-- More rounds change nothing. -/
theorem worldLoop_mono (O : MatOps Matrix4x4) (bones : List BoneData) : ∀ (fuel extra : Nat) (bone : BoneData)
    (t : Matrix4x4) (visited : List Nat) (r), worldLoop O bones fuel bone t visited = some r →
    worldLoop O bones (fuel + extra) bone t visited = some r
  | 0, _, _, _, _, _, h => by cases h
  | fuel + 1, extra, bone, t, visited, r, h => by
    rw [Nat.add_right_comm, worldLoop]
    rw [worldLoop] at h
    split
    · simpa [*] using h
    · simp only [*] at h
      split
      · simpa [*] using h
      · simp only [*, if_false] at h
        split
        · simp only [*] at h
          exact worldLoop_mono O bones fuel extra _ _ _ _ h
        · simpa [*] using h

/-- What the result says about the walk: `visited` are the first `n` indices of the walk from `start`. -/
theorem worldLoop_sound (O : MatOps Matrix4x4) (bones : List BoneData) (start : Option Nat) :
    ∀ (fuel : Nat) (bone : BoneData) (t : Matrix4x4) (visited : List Nat) (n : Nat) (r),
    follow bones start n = bone.parent_index → (∀ x ∈ visited, ∃ j, j < n ∧ follow bones start j = some x) →
    worldLoop O bones fuel bone t visited = some r →
    match r with
    | .ok m => ∃ l, Chain bones bone.parent_index l ∧ m = l.foldl (fun t p => O.mul p.transform t) t
    | .error (.cycleDetected i) => ∃ j k, j < k ∧ follow bones start j = some i ∧ follow bones start k = some i
  | 0, _, _, _, _, _, _, _, h => by cases h
  | fuel + 1, bone, t, visited, n, r, hn, hv, h => by
    rw [worldLoop] at h
    split at h
    · rename_i hp
      cases h
      exact ⟨[], hp ▸ .root, rfl⟩
    · rename_i p hp
      split at h
      · rename_i hm
        cases h
        obtain ⟨j, hj, hf⟩ := hv p hm
        exact ⟨j, n, hj, hf, by rw [hn, hp]⟩
      · split at h
        · rename_i parent hg
          have ih := worldLoop_sound O bones start fuel parent _ _ (n + 1) r
            (by rw [follow, hn, hp]; simp [hg])
            (by
              intro x hx
              cases List.mem_cons.mp hx with
              | inl h => exact ⟨n, by omega, by rw [hn, hp, h]⟩
              | inr h =>
                obtain ⟨j, hj, hf⟩ := hv x h
                exact ⟨j, by omega, hf⟩) h
          cases r with
          | ok m =>
            obtain ⟨l, hl, he⟩ := ih
            exact ⟨parent :: l, hp ▸ .step hg hl, he⟩
          | error e => exact ih
        · rename_i hg
          cases h
          exact ⟨[], hp ▸ .missing hg, rfl⟩

/-! ## Collecting results -/

theorem collect_ok {l : List (Option (Except ε α))} {xs : List α} : collect l = some (.ok xs) ↔
    l = xs.map fun x => some (.ok x) := by
  induction l generalizing xs with
  | nil => cases xs <;> simp [collect]
  | cons x l ih =>
    cases x with
    | none => cases xs <;> simp [collect]
    | some x =>
      cases x with
      | error e => cases xs <;> simp [collect]
      | ok x =>
        rw [collect]
        cases xs with
        | nil => split <;> simp
        | cons y ys =>
          have ih := @ih ys
          split <;> simp_all

theorem collect_error {l : List (Option (Except ε α))} {e : ε} (h : collect l = some (.error e)) :
    some (.error e) ∈ l := by
  induction l with
  | nil => cases h
  | cons x l ih =>
    cases x with
    | none => cases h
    | some x =>
      cases x with
      | error e' =>
        cases h
        exact List.mem_cons_self
      | ok x =>
        rw [collect] at h
        split at h
        · cases h
        · rename_i h'
          cases h
          exact List.mem_cons_of_mem _ (ih h')
        · cases h

theorem collect_none {l : List (Option (Except ε α))} (h : ∀ x ∈ l, x ≠ none) : collect l ≠ none := by
  induction l with
  | nil => simp [collect]
  | cons x l ih =>
    have ih := ih fun y hy => h y (List.mem_cons_of_mem _ hy)
    cases x with
    | none => exact absurd rfl (h none List.mem_cons_self)
    | some x =>
      cases x with
      | error e => simp [collect]
      | ok x =>
        rw [collect]
        split <;> simp_all

end SkelData
end Verif
