import Verif.Data.Text
/-!
# Lemmas about text
-/

namespace Verif

/-- The text before the first NUL character. -/
def cutNul (s : String) : String := String.ofList (s.toList.takeWhile (· ≠ '\x00'))

theorem cutNul_of_not_mem {s : String} (h : '\x00' ∉ s.toList) : cutNul s = s := by
  have : s.toList.takeWhile (· ≠ '\x00') = s.toList := by
    have : ∀ l : List Char, '\x00' ∉ l → l.takeWhile (· ≠ '\x00') = l := by
      intro l
      induction l with
      | nil => simp
      | cons c l ih =>
        intro h
        simp only [List.mem_cons, not_or] at h
        rw [List.takeWhile_cons, if_pos (by simpa using Ne.symm h.1), ih h.2]
    exact this _ h
  unfold cutNul
  rw [this, String.ofList_toList]

theorem textBytes_eq (s : String) : textBytes s = s.toList.flatMap String.utf8EncodeChar := by
  unfold textBytes
  rw [← String.utf8Encode_toList]
  simp [List.utf8Encode]

theorem fromUtf8_textBytes (s : String) : fromUtf8 (textBytes s) = some s := by
  unfold fromUtf8 textBytes String.fromUTF8?
  rw [dif_pos (by simpa using s.isValidUTF8)]
  simp [String.fromUTF8]

theorem utf8EncodeChar_nul : String.utf8EncodeChar '\x00' = [0] := by decide

theorem utf8EncodeChar_noNull {c : Char} (h : c ≠ '\x00') : (0 : UInt8) ∉ String.utf8EncodeChar c := by
  have hc : c.val.toNat ≠ 0 := by
    intro h0
    apply h
    apply Char.ext
    apply UInt32.toNat_inj.mp
    rw [h0]; rfl
  have hne : ∀ x : Nat, x % 256 ≠ 0 → (0 : UInt8) ≠ UInt8.ofNat x := by
    intro x hx h
    have := congrArg UInt8.toNat h
    simp at this
    omega
  unfold String.utf8EncodeChar
  simp only
  repeat' split
  all_goals
    simp only [List.mem_cons, List.not_mem_nil, or_false, not_or]
    repeat' apply And.intro
    all_goals
      apply hne
      omega

theorem takeWhile_append_pos {p : α → Bool} : ∀ {l₁ l₂ : List α}, (∀ x ∈ l₁, p x = true) →
    (l₁ ++ l₂).takeWhile p = l₁ ++ l₂.takeWhile p
  | [], _, _ => rfl
  | x :: l₁, l₂, h => by
    rw [List.cons_append, List.takeWhile_cons, if_pos (h x List.mem_cons_self),
      takeWhile_append_pos (fun y hy => h y (List.mem_cons_of_mem _ hy)), List.cons_append]

theorem takeWhile_encode : ∀ l : List Char, (l.flatMap String.utf8EncodeChar).takeWhile (· ≠ 0) =
    (l.takeWhile (· ≠ '\x00')).flatMap String.utf8EncodeChar
  | [] => by simp
  | c :: l => by
    rw [List.flatMap_cons, List.takeWhile_cons]
    by_cases h : c = '\x00'
    · subst h
      rw [utf8EncodeChar_nul]
      simp
    · rw [if_pos (by simpa using h), List.flatMap_cons, takeWhile_append_pos, takeWhile_encode l]
      intro b hb
      have : b ≠ 0 := fun h0 => utf8EncodeChar_noNull h (h0 ▸ hb)
      simpa using this

theorem fromBytes_textBytes (s : String) : (CStr.fromBytes (textBytes s)).bytes = textBytes (cutNul s) := by
  show (textBytes s).takeWhile _ = _
  rw [textBytes_eq, takeWhile_encode, textBytes_eq, cutNul, String.toList_ofList]

/-- Text written to a format string and read back is cut at the first NUL. -/
theorem toStr_fromBytes (s : String) : (CStr.fromBytes (textBytes s)).toStr = some (cutNul s) := by
  unfold CStr.toStr
  rw [fromBytes_textBytes, fromUtf8_textBytes]

theorem ssbhToStr_ssbhText (s : String) : ssbhToStr (ssbhText s) = some (cutNul s) := toStr_fromBytes s

theorem toStringLossy_ssbhText (s : String) : toStringLossy (ssbhText s) = cutNul s := by
  unfold toStringLossy
  rw [ssbhToStr_ssbhText]
  rfl

theorem cutNul_idem (s : String) : cutNul (cutNul s) = cutNul s := by
  apply cutNul_of_not_mem
  unfold cutNul
  rw [String.toList_ofList]
  have : ∀ l : List Char, '\x00' ∉ l.takeWhile (· ≠ '\x00') := by
    intro l
    induction l with
    | nil => simp
    | cons c l ih =>
      rw [List.takeWhile_cons]
      split
      · rename_i h
        simp only [List.mem_cons, not_or]
        exact ⟨fun h0 => by simp [← h0] at h, ih⟩
      · simp
  exact this _

/-- Bytes which are valid text are the bytes of that text. -/
theorem textBytes_of_fromUtf8 {b : Bytes} {s : String} (h : fromUtf8 b = some s) : textBytes s = b := by
  unfold fromUtf8 String.fromUTF8? at h
  split at h
  · cases h
    simp [textBytes, String.fromUTF8]
  · cases h

theorem nul_mem_textBytes {s : String} (h : '\x00' ∈ s.toList) : (0 : UInt8) ∈ textBytes s := by
  rw [textBytes_eq, List.mem_flatMap]
  exact ⟨_, h, by rw [utf8EncodeChar_nul]; simp⟩

/-- Text of a format string has no NUL. -/
theorem toStr_nulFree {c : CStr} {s : String} (h : c.toStr = some s) : '\x00' ∉ s.toList := by
  intro hm
  have := nul_mem_textBytes hm
  rw [textBytes_of_fromUtf8 h] at this
  exact c.noNull this

theorem toStringLossy_nulFree (s : SsbhString) : '\x00' ∉ (toStringLossy s).toList := by
  cases s with
  | none => simp [toStringLossy, ssbhToStr]
  | some c =>
    simp only [toStringLossy, ssbhToStr]
    cases h : c.toStr with
    | none => simp
    | some t => exact toStr_nulFree h

theorem cutNul_toStringLossy (s : SsbhString) : cutNul (toStringLossy s) = toStringLossy s :=
  cutNul_of_not_mem (toStringLossy_nulFree s)

end Verif
