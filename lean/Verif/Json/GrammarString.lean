import Verif.Json.TextPrefix
import Verif.Json.Grammar
/-!
# The parser of strings and the grammar
-/

namespace Verif.Json

instance (c : Char) (v : Nat) : Decidable (HexDigit c v) := by unfold HexDigit; infer_instance

theorem hex_table : ∀ n < 103, ∀ v < 16, JCodec.hexValue (Char.ofNat n) = some v → HexDigit (Char.ofNat n) v := by
  decide +kernel

theorem hexValue_iff (c : Char) (v : Nat) : JCodec.hexValue c = some v ↔ HexDigit c v := by
  constructor
  · intro h
    have h1 : c.toNat < 103 ∧ v < 16 := by
      unfold JCodec.hexValue at h
      repeat' split at h
      all_goals first | (cases h; done) | skip
      all_goals have h := Option.some.inj h
      all_goals simp only [Char.le_def, UInt32.le_iff_toNat_le] at *
      all_goals simp only [← Char.toNat_val, show '0'.val.toNat = 48 from rfl, show '9'.val.toNat = 57 from rfl, show 'a'.val.toNat = 97 from rfl,
        show 'f'.val.toNat = 102 from rfl, show 'A'.val.toNat = 65 from rfl, show 'F'.val.toNat = 70 from rfl] at *
      all_goals omega
    have h2 := hex_table c.toNat h1.1 v h1.2
    rw [Char.ofNat_toNat] at h2
    exact h2 h
  · intro h
    unfold HexDigit at h
    simp only [List.mem_cons, Prod.mk.injEq, List.not_mem_nil, or_false] at h
    rcases h with ⟨rfl, rfl⟩ | ⟨rfl, rfl⟩ | ⟨rfl, rfl⟩ | ⟨rfl, rfl⟩ | ⟨rfl, rfl⟩ | ⟨rfl, rfl⟩ | ⟨rfl, rfl⟩ | ⟨rfl, rfl⟩ | ⟨rfl, rfl⟩ | ⟨rfl, rfl⟩ |
      ⟨rfl, rfl⟩ | ⟨rfl, rfl⟩ | ⟨rfl, rfl⟩ | ⟨rfl, rfl⟩ | ⟨rfl, rfl⟩ | ⟨rfl, rfl⟩ | ⟨rfl, rfl⟩ | ⟨rfl, rfl⟩ | ⟨rfl, rfl⟩ | ⟨rfl, rfl⟩ | ⟨rfl, rfl⟩ |
      ⟨rfl, rfl⟩ <;> decide

theorem hex4_split {l : List Char} {n : Nat} {r : List Char} (h : hex4 l = some (n, r)) : ∃ x, Hex4 n x ∧ l = x ++ r := by
  unfold hex4 at h
  split at h
  · rename_i a b c d r'
    split at h
    · rename_i va vb vc vd h1 h2 h3 h4
      obtain ⟨e1, rfl⟩ := Prod.mk.inj (Option.some.inj h)
      exact ⟨[a, b, c, d], ⟨a, b, c, d, va, vb, vc, vd, rfl, (hexValue_iff _ _).mp h1, (hexValue_iff _ _).mp h2, (hexValue_iff _ _).mp h3,
        (hexValue_iff _ _).mp h4, by omega⟩, rfl⟩
    · cases h
  · cases h

theorem hex4_read {n : Nat} {x : List Char} (h : Hex4 n x) (r : List Char) : hex4 (x ++ r) = some (n, r) := by
  obtain ⟨a, b, c, d, va, vb, vc, vd, rfl, h1, h2, h3, h4, rfl⟩ := h
  show hex4 (a :: b :: c :: d :: r) = _
  rw [hex4, (hexValue_iff _ _).mpr h1, (hexValue_iff _ _).mpr h2, (hexValue_iff _ _).mpr h3, (hexValue_iff _ _).mpr h4]
  simp only [Option.some.injEq, Prod.mk.injEq, and_true]
  omega

theorem hex4_lt {n : Nat} {x : List Char} (h : Hex4 n x) : n < 65536 := by
  have hd : ∀ {c v}, HexDigit c v → v < 16 := by
    intro c v h
    unfold HexDigit at h
    simp only [List.mem_cons, Prod.mk.injEq, List.not_mem_nil, or_false] at h
    omega
  obtain ⟨a, b, c, d, va, vb, vc, vd, rfl, h1, h2, h3, h4, rfl⟩ := h
  have := hd h1; have := hd h2; have := hd h3; have := hd h4
  omega

theorem toNat_ofNat {n : Nat} (h : n < 0xD800 ∨ 0xDFFF < n ∧ n < 0x110000) : (Char.ofNat n).toNat = n := by
  unfold Char.ofNat
  rw [dif_pos (by exact h)]
  rfl

theorem char_range (c : Char) : c.toNat < 0xD800 ∨ 0xDFFF < c.toNat ∧ c.toNat < 0x110000 := c.valid

theorem parseUnicode_split {l : List Char} {c : Char} {r : List Char} (h : parseUnicode l = some (c, r)) :
    ∃ a, CharText c ('\\' :: 'u' :: a) ∧ l = a ++ r := by
  unfold parseUnicode at h
  cases h4 : hex4 l with
  | none => rw [h4] at h; cases h
  | some p =>
    obtain ⟨n, r1⟩ := p
    rw [h4] at h
    simp only at h
    obtain ⟨x, hx, hl⟩ := hex4_split h4
    have hlt := hex4_lt hx
    split at h
    · cases h
    rename_i h1
    split at h
    · rename_i h2
      split at h
      · rename_i r2
        cases h5 : hex4 r2 with
        | none => rw [h5] at h; cases h
        | some p =>
          obtain ⟨n', r3⟩ := p
          rw [h5] at h
          simp only at h
          split at h
          · rename_i h6
            obtain ⟨y, hy, hl2⟩ := hex4_split h5
            obtain ⟨e1, rfl⟩ := Prod.mk.inj (Option.some.inj h)
            refine ⟨x ++ '\\' :: 'u' :: y, .inr (.inr (.inr ⟨x, y, n, n', hx, hy, h2.1, h2.2, h6.1, h6.2, ?_, rfl⟩)), ?_⟩
            · rw [← e1, toNat_ofNat (by omega)]
            · rw [hl, hl2]; simp
          · cases h
      · cases h
    · rename_i h2
      obtain ⟨e1, rfl⟩ := Prod.mk.inj (Option.some.inj h)
      refine ⟨x, .inr (.inr (.inl ⟨x, ?_, rfl⟩)), hl⟩
      rw [← e1, toNat_ofNat (by omega)]
      exact hx

theorem unescape_split {l : List Char} {c : Char} {r : List Char} (h : unescape l = some (c, r)) :
    ∃ a, CharText c ('\\' :: a) ∧ l = a ++ r := by
  cases l with
  | nil => cases h
  | cons x cs =>
    have short : (x, c) ∈ shortEscapes → cs = r → ∃ a, CharText c ('\\' :: a) ∧ x :: cs = a ++ r :=
      fun hm e => ⟨[x], .inr (.inl ⟨x, hm, rfl⟩), by rw [e]; rfl⟩
    rw [unescape] at h
    split at h
    · rename_i hc; subst hc; obtain ⟨e1, e2⟩ := Prod.mk.inj (Option.some.inj h); subst e1; exact short (by decide) e2
    split at h
    · rename_i hc; subst hc; obtain ⟨e1, e2⟩ := Prod.mk.inj (Option.some.inj h); subst e1; exact short (by decide) e2
    split at h
    · rename_i hc; subst hc; obtain ⟨e1, e2⟩ := Prod.mk.inj (Option.some.inj h); subst e1; exact short (by decide) e2
    split at h
    · rename_i hc; subst hc; obtain ⟨e1, e2⟩ := Prod.mk.inj (Option.some.inj h); subst e1; exact short (by decide) e2
    split at h
    · rename_i hc; subst hc; obtain ⟨e1, e2⟩ := Prod.mk.inj (Option.some.inj h); subst e1; exact short (by decide) e2
    split at h
    · rename_i hc; subst hc; obtain ⟨e1, e2⟩ := Prod.mk.inj (Option.some.inj h); subst e1; exact short (by decide) e2
    split at h
    · rename_i hc; subst hc; obtain ⟨e1, e2⟩ := Prod.mk.inj (Option.some.inj h); subst e1; exact short (by decide) e2
    split at h
    · rename_i hc; subst hc; obtain ⟨e1, e2⟩ := Prod.mk.inj (Option.some.inj h); subst e1; exact short (by decide) e2
    split at h
    · rename_i hc
      subst hc
      obtain ⟨a, h1, rfl⟩ := parseUnicode_split h
      exact ⟨'u' :: a, h1, rfl⟩
    · cases h

theorem parseStr_split : ∀ {fuel : Nat} {l s r : List Char}, parseStr fuel l = some (s, r) → ∃ b, CharsText s b ∧ l = b ++ '"' :: r
  | 0, _, _, _, h => by cases h
  | fuel + 1, [], _, _, h => by cases h
  | fuel + 1, c :: cs, s, r, h => by
    rw [parseStr] at h
    by_cases h1 : c = '"'
    · rw [if_pos h1] at h
      cases h
      exact ⟨[], rfl, by rw [h1]; rfl⟩
    rw [if_neg h1] at h
    by_cases h2 : c = '\\'
    · rw [if_pos h2] at h
      cases h3 : unescape cs with
      | none => rw [h3] at h; cases h
      | some p =>
        obtain ⟨x, r1⟩ := p
        rw [h3] at h
        simp only [Option.map_eq_some_iff] at h
        obtain ⟨⟨s1, r2⟩, h4, h5⟩ := h
        cases h5
        obtain ⟨a, ha, rfl⟩ := unescape_split h3
        obtain ⟨b, hb, rfl⟩ := parseStr_split h4
        exact ⟨'\\' :: a ++ b, ⟨_, b, rfl, ha, hb⟩, by rw [h2]; simp⟩
    rw [if_neg h2] at h
    by_cases h3 : c.toNat < 32
    · rw [if_pos h3] at h
      cases h
    rw [if_neg h3] at h
    simp only [Option.map_eq_some_iff] at h
    obtain ⟨⟨s1, r2⟩, h4, h5⟩ := h
    cases h5
    obtain ⟨b, hb, rfl⟩ := parseStr_split h4
    exact ⟨c :: b, ⟨[c], b, rfl, .inl ⟨by omega, h1, h2, rfl⟩, hb⟩, rfl⟩

theorem unicode_read {c : Char} {a : List Char} (h : (∃ h, Hex4 c.toNat h ∧ a = h) ∨
    ∃ h1 h2 n1 n2, Hex4 n1 h1 ∧ Hex4 n2 h2 ∧ 0xD800 ≤ n1 ∧ n1 ≤ 0xDBFF ∧ 0xDC00 ≤ n2 ∧ n2 ≤ 0xDFFF ∧
    c.toNat = (n1 - 0xD800) * 1024 + (n2 - 0xDC00) + 0x10000 ∧ a = h1 ++ '\\' :: 'u' :: h2) (r : List Char) :
    parseUnicode (a ++ r) = some (c, r) := by
  unfold parseUnicode
  have hc := char_range c
  rcases h with ⟨x, hx, rfl⟩ | ⟨x, y, n1, n2, hx, hy, h1, h2, h3, h4, h5, rfl⟩
  · rw [hex4_read hx]
    simp only
    rw [if_neg (by omega), if_neg (by omega), Char.ofNat_toNat]
  · rw [List.append_assoc, hex4_read hx]
    simp only
    rw [if_neg (by omega), if_pos ⟨h1, h2⟩]
    simp only [List.cons_append, hex4_read hy]
    rw [if_pos ⟨h3, h4⟩]
    have e : (n1 - 0xD800) * 2 ^ 10 + (n2 - 0xDC00) + 0x10000 = c.toNat := by omega
    rw [e, Char.ofNat_toNat]

theorem parseStr_char {c : Char} {a : List Char} (h : CharText c a) (fuel : Nat) (r : List Char) :
    parseStr (fuel + 1) (a ++ r) = (parseStr fuel r).map fun p => (c :: p.1, p.2) := by
  have esc : ∀ b, a = '\\' :: b → unescape (b ++ r) = some (c, r) →
      parseStr (fuel + 1) (a ++ r) = (parseStr fuel r).map fun p => (c :: p.1, p.2) := by
    rintro b rfl hb
    rw [List.cons_append, parseStr, if_neg (by decide), if_pos rfl, hb]
  rcases h with ⟨h1, h2, h3, rfl⟩ | ⟨e, he, rfl⟩ | ⟨x, hx, rfl⟩ | ⟨x, y, n1, n2, hx, hy, h1, h2, h3, h4, h5, rfl⟩
  · rw [List.singleton_append, parseStr, if_neg h2, if_neg h3, if_neg (by omega)]
  · refine esc _ rfl ?_
    simp only [shortEscapes, List.mem_cons, Prod.mk.injEq, List.not_mem_nil, or_false] at he
    rcases he with ⟨rfl, rfl⟩ | ⟨rfl, rfl⟩ | ⟨rfl, rfl⟩ | ⟨rfl, rfl⟩ | ⟨rfl, rfl⟩ | ⟨rfl, rfl⟩ | ⟨rfl, rfl⟩ | ⟨rfl, rfl⟩ <;> rfl
  · refine esc _ rfl ?_
    exact unicode_read (.inl ⟨x, hx, rfl⟩) r
  · refine esc _ rfl ?_
    exact unicode_read (.inr ⟨x, y, n1, n2, hx, hy, h1, h2, h3, h4, h5, rfl⟩) r

theorem charText_ne {c : Char} {a : List Char} (h : CharText c a) : a ≠ [] := by
  rcases h with ⟨-, -, -, rfl⟩ | ⟨e, -, rfl⟩ | ⟨x, -, rfl⟩ | ⟨x, y, n1, n2, -, -, -, -, -, -, -, rfl⟩ <;> simp

theorem charsText_length : ∀ {cs b : List Char}, CharsText cs b → cs.length ≤ b.length
  | [], b, _ => by simp
  | c :: cs, _, ⟨a, b, rfl, h1, h2⟩ => by
    have := charsText_length h2
    have := List.length_pos_iff.mpr (charText_ne h1)
    rw [List.length_append, List.length_cons]
    omega

theorem parseStr_read : ∀ {cs b : List Char} (fuel : Nat) (r : List Char), CharsText cs b → cs.length < fuel →
    parseStr fuel (b ++ '"' :: r) = some (cs, r)
  | _, _, 0, _, _, hf => absurd hf (Nat.not_lt_zero _)
  | [], _, fuel + 1, r, rfl, _ => rfl
  | c :: cs, _, fuel + 1, r, ⟨a, b, rfl, h1, h2⟩, hf => by
    rw [List.append_assoc, parseStr_char h1, parseStr_read fuel r h2 (by simpa using hf)]
    rfl

theorem string_read {s : String} {t : List Char} (h : StringText s t) (r : List Char) :
    ∃ b, t ++ r = '"' :: b ∧ parseStr (b.length + 1) b = some (s.toList, r) := by
  obtain ⟨b, hb, rfl⟩ := h
  refine ⟨b ++ '"' :: r, by simp, parseStr_read _ r hb ?_⟩
  have := charsText_length hb
  rw [List.length_append]
  omega

end Verif.Json
