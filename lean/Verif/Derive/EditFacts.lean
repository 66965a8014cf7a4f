import Verif.Derive.EditLaws
import Mathlib.Data.List.Basic
/-!
# Facts about changes of values, used for C93
-/

namespace Verif.Derive

@[simp] theorem plus_zero' (a : Option Nat) : plus a (some 0) = a := by cases a <;> rfl
@[simp] theorem zero_plus (a : Option Nat) : plus (some 0) a = a := by cases a <;> simp [plus]

theorem editAll_refl {f : α → α → Option Nat} (hf : ∀ v, f v v = some 0) (l : List α) : editAll f l l = some 0 := by
  induction l with
  | nil => rfl
  | cons v l ih => rw [editAll, hf, ih, zero_plus]

theorem editOption_refl {f : α → α → Option Nat} (hf : ∀ v, f v v = some 0) (o : Option α) : editOption f o o = some 0 := by
  cases o with
  | none => rfl
  | some v => exact hf v

theorem editBytes_refl (b : Bytes) : editBytes b b = some 0 := by
  simp [editBytes, differences_self]

mutual
/-- Nothing changes in a value which is not changed. -/
theorem Ty.edit_refl : (t : Ty) → (v : t.Val) → t.edit v v = some 0
  | .number n, v => by simp [Ty.edit]
  | .unit, _ => rfl
  | .option t, v => editOption_refl t.edit_refl v
  | .vec t, v => editAll_refl t.edit_refl v
  | .array _ t, v => editAll_refl t.edit_refl _
  | .repr _ n _, v => by simp [Ty.edit]
  | .bitfield n, v => by simp [Ty.edit]
  | .named _ fs, v => fs.edit_refl v
  | .tuple _ fs, v => fs.edit_refl v
  | .enum _ vs, v => vs.edit_refl v
  | .ptr t, v => editOption_refl t.edit_refl v
  | .list t, v => editAll_refl t.edit_refl v
  | .buffer, v => editBytes_refl v
  | .text _, v => editOption_refl (fun s : CStr => editBytes_refl s.bytes) v
  | .tagged _ t, v => editOption_refl t.edit_refl v

theorem Fields.edit_refl : (fs : Fields) → (v : fs.Val) → fs.edit v v = some 0
  | .nil, _ => rfl
  | .cons _ _ t fs, v => by rw [Fields.edit, t.edit_refl, fs.edit_refl, zero_plus]

theorem Variants.edit_refl : (vs : Variants) → (v : vs.Val) → vs.edit v v = some 0
  | .nil, v => nomatch v
  | .cons _ _ fs _, .inl v => fs.edit_refl v
  | .cons _ _ _ vs, .inr v => vs.edit_refl v
end

/-- Replacing one element changes what changes in it. -/
theorem editAll_set {f : α → α → Option Nat} (hf : ∀ v, f v v = some 0) {l : List α} {i : Nat} {v : α} (h : l[i]? = some v)
    (v' : α) : editAll f l (l.set i v') = f v v' := by
  induction l generalizing i with
  | nil => cases h
  | cons x l ih =>
    cases i with
    | zero =>
      cases h
      rw [List.set_cons_zero, editAll, editAll_refl hf, plus_zero']
    | succ i =>
      rw [List.set_cons_succ, editAll, hf, ih h, zero_plus]

theorem editAll_append_left {f : α → α → Option Nat} (hf : ∀ v, f v v = some 0) (a b b' : List α) :
    editAll f (a ++ b) (a ++ b') = editAll f b b' := by
  induction a with
  | nil => rfl
  | cons v a ih => rw [List.cons_append, List.cons_append, editAll, hf, ih, zero_plus]

theorem editAll_append_right {f : α → α → Option Nat} (hf : ∀ v, f v v = some 0) {a a' : List α} {k : Nat}
    (h : editAll f a a' = some k) (b : List α) : editAll f (a ++ b) (a' ++ b) = some k := by
  induction a generalizing a' k with
  | nil =>
    cases a' with
    | nil => cases h; exact editAll_refl hf b
    | cons _ _ => cases h
  | cons v a ih =>
    cases a' with
    | nil => cases h
    | cons v' a' =>
      rw [List.cons_append, List.cons_append, editAll]
      rw [editAll] at h
      cases e : editAll f a a' with
      | none => rw [e] at h; cases hf' : f v v' <;> rw [hf'] at h <;> simp [plus] at h
      | some n => rw [ih e, ← e, h]

theorem editAll_length {f : α → α → Option Nat} : ∀ {l l' : List α} {k : Nat}, editAll f l l' = some k → l.length = l'.length
  | [], [], _, _ => rfl
  | [], _ :: _, _, h => by cases h
  | _ :: _, [], _, h => by cases h
  | _ :: l, _ :: l', _, h => by
    obtain ⟨_, _, _, h, -⟩ := plus_parts h
    simp [editAll_length h]

end Verif.Derive
