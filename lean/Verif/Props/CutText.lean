import Verif.Json.TextPrefix
import Verif.Props.JsonText
import Verif.Props.FloatText
import Verif.Props.Interrupted
/-!
# C104: JSON that is cut short
-/

namespace Verif.Props
open Verif Verif.Json

/-- Arrays and objects: what the programs write. -/
def isNested : J → Bool
  | .arr _ => true
  | .obj _ => true
  | _ => false

/-! ## Values -/

theorem fromText_cases {s : String} {j : J} (h : fromText s = some j) :
    ∃ r, parseValue 128 s.toList = some (j, r) ∧ ∀ c ∈ r, IsSpace c := by
  unfold fromText at h
  split at h
  · cases h
  · rename_i r h1
    split at h
    · rename_i h2
      cases h
      exact ⟨r, h1, skip_eq_nil.mp h2⟩
    · cases h

/-- C104: if a text is read as anything but a number, then it is read as the same value with white space after it, and it is rejected
with any other characters after it. This holds for every text, not only for printed ones. -/
theorem C104_extended (s : String) (j : J) (h : fromText s = some j) (hj : isNumber j = false) (q : List Char) :
    ((∀ c ∈ q, IsSpace c) → fromText (String.ofList (s.toList ++ q)) = some j) ∧
    ((∃ c ∈ q, ¬ IsSpace c) → fromText (String.ofList (s.toList ++ q)) = none) := by
  obtain ⟨r, h1, h2⟩ := fromText_cases h
  have h3 := parseValue_extends 128 _ _ _ h1 q (.inr (.inl hj))
  rw [fromText, String.toList_ofList, h3]
  simp only [skip_blank h2]
  constructor
  · intro hq
    rw [if_pos (skip_eq_nil.mpr hq)]
  · rintro ⟨c, hc, hn⟩
    rw [if_neg fun e => hn (skip_eq_nil.mp e c hc)]

theorem nested_head (P : Nat → Nat × Int) (j : J) (hj : isNested j = true) : ∃ c r, pretty P 0 j = c :: r ∧ (c = '[' ∨ c = '{') := by
  cases j with
  | arr l => cases l <;> rw [pretty] <;> exact ⟨_, _, rfl, .inl rfl⟩
  | obj l => cases l <;> rw [pretty] <;> exact ⟨_, _, rfl, .inr rfl⟩
  | _ => cases hj

theorem nested_value {d : Nat} {c : Char} {r : List Char} {j : J} {rest : List Char} (hc : c = '[' ∨ c = '{')
    (h : parseValue d (c :: r) = some (j, rest)) : isNumber j = false := by
  cases d with
  | zero => cases h
  | succ d =>
    rcases hc with rfl | rfl
    · rw [parseValue, skip_cons (by unfold blank; decide)] at h
      replace h : (if d = 0 then none else _) = _ := h
      split at h
      · cases h
      split at h
      · cases h
      split at h
      · cases h; rfl
      · simp only [Option.map_eq_some_iff] at h
        obtain ⟨p, -, h⟩ := h
        cases h; rfl
    · rw [parseValue, skip_cons (by unfold blank; decide)] at h
      replace h : (if d = 0 then none else _) = _ := h
      split at h
      · cases h
      split at h
      · cases h
      split at h
      · cases h; rfl
      · simp only [Option.map_eq_some_iff] at h
        obtain ⟨p, -, h⟩ := h
        cases h; rfl

/-- C104: the text of an array or object that is not complete is rejected, whatever is missing at its end. -/
theorem C104_prefix (P : Nat → Nat × Int) (hP : Prints P) (j : J) (hf : j.fits = true) (hd : j.depth ≤ 127) (hj : isNested j = true)
    (a b : List Char) (hab : (toText P j).toList = a ++ b) (hb : b ≠ []) : fromText (String.ofList a) = none := by
  cases h : fromText (String.ofList a) with
  | none => rfl
  | some k =>
    exfalso
    obtain ⟨r, h1, -⟩ := fromText_cases h
    rw [String.toList_ofList] at h1
    rw [toText, String.toList_ofList] at hab
    obtain ⟨c, t, e, hc⟩ := nested_head P j hj
    cases a with
    | nil => cases h1
    | cons x a =>
      rw [e] at hab
      obtain ⟨rfl, -⟩ := List.cons.inj hab
      rw [← e] at hab
      have h2 := parseValue_extends 128 _ _ _ h1 b (.inr (.inl (nested_value hc h1)))
      have h3 := pretty_read hP j 128 0 hf (by omega) [] stops_nil
      rw [List.append_nil, hab, h2] at h3
      have h4 := (Prod.mk.inj (Option.some.inj h3)).2
      exact hb (List.append_eq_nil_iff.mp h4).2

/-- C104: numbers are different. -/
theorem C104_number : fromText "12" = some (.num 12) ∧ fromText "1" = some (.num 1) := by
  constructor <;> exact reads (by decide +kernel)

/-! ## Bytes -/

theorem text_prefix {s t : String} {b : Bytes} (h : textBytes s = textBytes t ++ b) : t.toList <+: s.toList := by
  apply List.isPrefix_of_utf8Encode_append_eq_utf8Encode ⟨b.toArray⟩
  rw [String.utf8Encode_toList, String.utf8Encode_toList]
  apply ByteArray.ext
  apply Array.toList_inj.mp
  simpa [textBytes] using h.symm

/-- C104: this also holds if the bytes end inside of a character. -/
theorem C104_bytes (P : Nat → Nat × Int) (hP : Prints P) (j : J) (hf : j.fits = true) (hd : j.depth ≤ 127) (hj : isNested j = true)
    (k : Nat) (hk : k < (textBytes (toText P j)).length) : (fromUtf8 ((textBytes (toText P j)).take k)).bind fromText = none := by
  cases h : fromUtf8 ((textBytes (toText P j)).take k) with
  | none => rfl
  | some s =>
    have h1 := textBytes_of_fromUtf8 h
    have h2 : textBytes (toText P j) = textBytes s ++ (textBytes (toText P j)).drop k := by rw [h1, List.take_append_drop]
    obtain ⟨b, hb⟩ := text_prefix h2
    have h3 := C104_prefix P hP j hf hd hj s.toList b hb.symm (by
      rintro rfl
      rw [List.append_nil] at hb
      have e : s = toText P j := String.toList_inj.mp hb
      rw [e] at h1
      have := congrArg List.length h1
      rw [List.length_take] at this
      omega)
    rw [String.ofList_toList] at h3
    exact h3

/-! ## Files and programs -/

theorem lib_nested (f : JsonFile) : isNested f.toJson = true := by
  cases f with
  | ssbh v => cases v <;> rfl
  | meshEx v => rfl
  | adj v => rfl

theorem data_nested (f : DataFile) : isNested f.toJson = true := by cases f <;> rfl

/-- Nothing is written, and the program does not end as if it had been. -/
def Refused (r : Exit × Disk) (d : Disk) : Prop := r.2 = d ∧ r.1 ≠ .done

theorem lib_refused {T : JsonText} {p : Path} {out : Option Path} {d : Disk} {b : Bytes} (he : p.extension = some "json")
    (hf : d.files p = some b) (h : (fromUtf8 b).bind T.parse = none) : Refused (libMain T p out d) d := by
  unfold libMain
  simp only [he, if_true, hf, Option.bind_some]
  cases hu : fromUtf8 b with
  | none => exact ⟨rfl, by simp⟩
  | some s =>
    rw [hu, Option.bind_some] at h
    simp only [h, Option.bind_none]
    exact ⟨rfl, by simp⟩

theorem data_refused {T : JsonText} {O : DataOps} {p : Path} {out : Option Path} {d : Disk} {b : Bytes} (he : p.extension = some "json")
    (hf : d.files p = some b) (h : (fromUtf8 b).bind T.parse = none) : Refused (dataMain T O p out d) d := by
  unfold dataMain
  simp only [he, if_true, hf, Option.bind_some]
  cases hu : fromUtf8 b with
  | none => exact ⟨rfl, by simp⟩
  | some s =>
    rw [hu, Option.bind_some] at h
    simp only [h, Option.bind_none]
    exact ⟨rfl, by simp⟩

/-- C104: ssbh_lib_json does nothing with an incomplete JSON file that was printed for a file. -/
theorem C104_lib (P : Nat → Nat × Int) (hP : Prints P) (f : JsonFile) (p : Path) (out : Option Path) (d : Disk) (k : Nat)
    (he : p.extension = some "json") (hf : d.files p = some ((textBytes (toText P f.toJson)).take k))
    (hk : k < (textBytes (toText P f.toJson)).length) : Refused (libMain ⟨toText P, fromText⟩ p out d) d :=
  lib_refused he hf (C104_bytes P hP _ (lib_small f).1 (lib_small f).2 (lib_nested f) k hk)

/-- C104: the same for ssbh_data_json. -/
theorem C104_data (P : Nat → Nat × Int) (hP : Prints P) (O : DataOps) (f : DataFile) (hm : MachineSized f) (p : Path) (out : Option Path)
    (d : Disk) (k : Nat) (he : p.extension = some "json") (hf : d.files p = some ((textBytes (toText P f.toJson)).take k))
    (hk : k < (textBytes (toText P f.toJson)).length) : Refused (dataMain ⟨toText P, fromText⟩ O p out d) d :=
  data_refused he hf (C104_bytes P hP _ (data_small f hm).1 (data_small f hm).2 (data_nested f) k hk)

/-- C104: so if writing the JSON file was stopped anywhere, the file is the old one, or it is complete and the call that wrote it
returned without an error, or ssbh_lib_json does nothing with it. `File::create` and `write_all` of the text are the steps of
C98. -/
theorem C104_stopped (P : Nat → Nat × Int) (hP : Prints P) (f : JsonFile) (w : World) (i : Nat) (p : Path) (he : p.extension = some "json")
    (h : OnlySaver w i p (some (textBytes (toText P f.toJson)))) (es : List (Nat × Reply)) :
    (w.run es).disk.files p = w.disk.files p ∨
    ((w.run es).disk.files p = some (textBytes (toText P f.toJson)) ∧
      (w.run es).tasks i = .save p (some (textBytes (toText P f.toJson))) .ok) ∨
    ∀ out, Refused (libMain ⟨toText P, fromText⟩ p out (w.run es).disk) (w.run es).disk := by
  rcases C98_content w i p _ h es with ⟨h1, _⟩ | ⟨h1, _⟩ | ⟨b, k, h1, h2, h3, h4⟩
  · exact .inl h1
  · cases h1
  · obtain rfl := Option.some.inj h1
    rcases Nat.lt_or_ge k (textBytes (toText P f.toJson)).length with hk | hk
    · exact .inr (.inr fun out => C104_lib P hP f p out _ k he h3 hk)
    · have e : k = (textBytes (toText P f.toJson)).length := by omega
      refine .inr (.inl ⟨by rw [h3, e, List.take_length], h4.mpr e⟩)

/-- C104: the same for ssbh_data_json. -/
theorem C104_data_stopped (P : Nat → Nat × Int) (hP : Prints P) (O : DataOps) (f : DataFile) (hm : MachineSized f) (w : World) (i : Nat)
    (p : Path) (he : p.extension = some "json") (h : OnlySaver w i p (some (textBytes (toText P f.toJson)))) (es : List (Nat × Reply)) :
    (w.run es).disk.files p = w.disk.files p ∨
    ((w.run es).disk.files p = some (textBytes (toText P f.toJson)) ∧
      (w.run es).tasks i = .save p (some (textBytes (toText P f.toJson))) .ok) ∨
    ∀ out, Refused (dataMain ⟨toText P, fromText⟩ O p out (w.run es).disk) (w.run es).disk := by
  rcases C98_content w i p _ h es with ⟨h1, _⟩ | ⟨h1, _⟩ | ⟨b, k, h1, h2, h3, h4⟩
  · exact .inl h1
  · cases h1
  · obtain rfl := Option.some.inj h1
    rcases Nat.lt_or_ge k (textBytes (toText P f.toJson)).length with hk | hk
    · exact .inr (.inr fun out => C104_data P hP O f hm p out _ k he h3 hk)
    · have e : k = (textBytes (toText P f.toJson)).length := by omega
      refine .inr (.inl ⟨by rw [h3, e, List.take_length], h4.mpr e⟩)

/-- The text of a file, cut in half and in the middle of a character. -/
example : isNested modlFile.toJson = true ∧ 100 < (textBytes (toText shortest modlFile.toJson)).length ∧
    isNested exValue = true ∧ fromUtf8 ((textBytes (toText shortest exValue)).take 122) = none := by
  decide +kernel

example (d : Disk) (h : d.files ⟨"a".toList, "m.json".toList⟩ = some ((textBytes (toText shortest modlFile.toJson)).take 100)) :
    Refused (libMain ⟨toText shortest, fromText⟩ ⟨"a".toList, "m.json".toList⟩ none d) d :=
  C104_lib shortest shortest_prints modlFile _ none d 100 (by decide) h (by decide +kernel)

end Verif.Props
