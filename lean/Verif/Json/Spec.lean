import Verif.Data.Text
/-!
# What JSON keeps of a value

Specification: which values are `null` in JSON, which can be read back, and what is read back. Only three kinds of parts
matter: floats (JSON has no infinities and NaN), texts (JSON has no invalid UTF-8) and pointers to something that is `null`
itself.
-/

namespace Verif

/-- `isNull v`: `v` is written as `null`. `fin v`: `v` is accepted when it is read back. `norm v`: what it is then. -/
structure JSpec (α : Type) where
  isNull : α → Bool
  fin : α → Bool
  norm : α → α

namespace JSpec

/-- Numbers, booleans, names of variants, bytes: everything is kept. -/
def plain : JSpec α := ⟨fun _ => false, fun _ => true, id⟩

/-- Floats: infinities and NaN (all exponent bits set) become `null`, which is not a float. -/
def float : JSpec F32 := ⟨fun x => x.toNat / 2 ^ 23 % 256 = 255, fun x => x.toNat / 2 ^ 23 % 256 ≠ 255, id⟩

/-- Everything is kept if `fin`, otherwise nothing is read. -/
def exact (fin : α → Bool) : JSpec α := ⟨fun _ => false, fin, id⟩

/-- `Option` of it. -/
def optional (fin : α → Bool) : JSpec (Option α) := ⟨Option.isNone, fun o => o.all fin, id⟩

/-- Texts of files: what is not UTF-8 becomes the empty text. -/
def text : JSpec CStr := ⟨fun _ => false, fun _ => true, fun c => if (fromUtf8 c.bytes).isSome then c else ⟨[], by simp⟩⟩

/-- Nothing. -/
def unit : JSpec Unit := ⟨fun _ => true, fun _ => true, id⟩

/-- Each of the elements. -/
def list (s : JSpec α) : JSpec (List α) := ⟨fun _ => false, fun l => l.all s.fin, fun l => l.map s.norm⟩

def vector (s : JSpec α) : JSpec (Vector α n) := ⟨fun _ => false, fun v => v.toList.all s.fin, fun v => v.map s.norm⟩

/-- A pointer to something which is written as `null` becomes a null pointer. -/
def pointer (s : JSpec α) : JSpec (Option α) where
  isNull
    | none => true
    | some v => s.isNull v
  fin
    | none => true
    | some v => s.isNull v || s.fin v
  norm
    | none => none
    | some v => bif s.isNull v then none else some (s.norm v)

/-- The fields of a struct. -/
def both (s : JSpec α) (t : JSpec β) : JSpec (α × β) :=
  ⟨fun _ => false, fun v => s.fin v.1 && t.fin v.2, fun v => (s.norm v.1, t.norm v.2)⟩

/-- A struct with fields. -/
def fields (s : JSpec β) (to' : α → β) (of : β → α) : JSpec α :=
  ⟨fun _ => false, fun v => s.fin (to' v), fun v => of (s.norm (to' v))⟩

/-- A pointer to a tagged value, in a struct. -/
def tagged (s : JSpec α) : JSpec (Option α) := fields (pointer s) id id

end JSpec

end Verif
