import Verif.Json.TextFloat
/-!
# The text of a value is read back
-/

namespace Verif

namespace Json
open Verif.Ieee

/-! ## White space -/

def blank (c : Char) : Prop := c = ' ' ∨ c = '\n' ∨ c = '\t' ∨ c = '\r'

theorem skip_cons {c : Char} {r : List Char} (h : ¬ blank c) : skip (c :: r) = c :: r := if_neg h

theorem skip_spaces : ∀ (n : Nat) (r : List Char), skip (List.replicate n ' ' ++ r) = skip r
  | 0, r => rfl
  | n + 1, r => by
    rw [List.replicate_succ, List.cons_append, skip, if_pos (.inl rfl)]
    exact skip_spaces n r

theorem skip_newLine (n : Nat) (r : List Char) : skip (newLine n ++ r) = skip r := by
  unfold newLine
  rw [List.cons_append, skip, if_pos (.inr (.inl rfl))]
  exact skip_spaces _ r

theorem parseValue_skip {d : Nat} {a b : List Char} (h : skip a = skip b) : parseValue d a = parseValue d b := by
  cases d with
  | zero => rfl
  | succ d => rw [parseValue, parseValue, h]

/-! ## Texts -/

theorem escape_ne_nil (c : Char) : escape c ≠ [] := by
  unfold escape
  repeat' split
  all_goals simp

theorem length_le_escaped : ∀ cs : List Char, cs.length ≤ (cs.flatMap escape).length
  | [] => by simp
  | c :: cs => by
    have h1 := length_le_escaped cs
    have h2 : 0 < (escape c).length := List.length_pos_iff.mpr (escape_ne_nil c)
    rw [List.flatMap_cons, List.length_append, List.length_cons]
    omega

theorem char_eq {c : Char} {n : Nat} (h : c.toNat = n) : c = Char.ofNat n := by
  rw [← h, Char.ofNat_toNat]

theorem control_hex : ∀ n < 32, JCodec.hexValue (JCodec.hexDigit (n / 16)) = some (n / 16) ∧
    JCodec.hexValue (JCodec.hexDigit (n % 16)) = some (n % 16) := by decide

/-- An escaped character is read as the character. -/
theorem parseStr_escape (c : Char) (fuel : Nat) (r : List Char) :
    parseStr (fuel + 1) (escape c ++ r) = (parseStr fuel r).map fun p => (c :: p.1, p.2) := by
  unfold escape
  split
  · rename_i h; subst h; rfl
  split
  · rename_i h; subst h; rfl
  split
  · rename_i h; rw [char_eq h]; rfl
  split
  · rename_i h; rw [char_eq h]; rfl
  split
  · rename_i h; rw [char_eq h]; rfl
  split
  · rename_i h; rw [char_eq h]; rfl
  split
  · rename_i h; rw [char_eq h]; rfl
  split
  · rename_i h
    obtain ⟨h1, h2⟩ := control_hex c.toNat h
    have e : unescape ('u' :: '0' :: '0' :: JCodec.hexDigit (c.toNat / 16) :: JCodec.hexDigit (c.toNat % 16) :: r) = some (c, r) := by
      have e0 : JCodec.hexValue '0' = some 0 := by decide
      have e1 : hex4 ('0' :: '0' :: JCodec.hexDigit (c.toNat / 16) :: JCodec.hexDigit (c.toNat % 16) :: r) = some (c.toNat, r) := by
        simp only [hex4, h1, h2, e0]
        congr 2
        omega
      show parseUnicode _ = _
      rw [parseUnicode, e1]
      simp only
      rw [if_neg (by omega), if_neg (by omega), Char.ofNat_toNat]
    show parseStr (fuel + 1) ('\\' :: ('u' :: '0' :: '0' :: JCodec.hexDigit (c.toNat / 16) :: JCodec.hexDigit (c.toNat % 16) :: r)) = _
    rw [parseStr, if_neg (by decide), if_pos rfl, e]
  · rename_i h1 h2 _ _ _ _ _ h3
    show parseStr (fuel + 1) (c :: r) = _
    rw [parseStr, if_neg h1, if_neg h2, if_neg h3]

theorem parseStr_text : ∀ (cs : List Char) (fuel : Nat) (r : List Char), cs.length < fuel →
    parseStr fuel (cs.flatMap escape ++ '"' :: r) = some (cs, r)
  | [], 0, r, h => absurd h (Nat.not_lt_zero _)
  | [], fuel + 1, r, h => rfl
  | c :: cs, 0, r, h => absurd h (Nat.not_lt_zero _)
  | c :: cs, fuel + 1, r, h => by
    rw [List.flatMap_cons, List.append_assoc, parseStr_escape, parseStr_text cs fuel r (by simpa using h)]
    rfl

theorem strText_read (s : String) (r : List Char) :
    ∃ t, strText s ++ r = '"' :: t ∧ parseStr (t.length + 1) t = some (s.toList, r) := by
  refine ⟨s.toList.flatMap escape ++ '"' :: r, by simp [strText], ?_⟩
  apply parseStr_text
  have := length_le_escaped s.toList
  rw [List.length_append]
  omega

/-! ## Values -/

theorem floatText_cases (P : Nat → Nat × Int) (x : F32) : ∃ body c r, body = c :: r ∧ c.isDigit = true ∧
    floatText P x = (if (ofBits x).neg then '-' :: body else body) ∧
    body = (if (ofBits x).mag = 0 then ['0', '.', '0'] else decimalText (P (ofBits x).mag).1 (P (ofBits x).mag).2) := by
  by_cases h : (ofBits x).mag = 0
  · exact ⟨['0', '.', '0'], '0', _, rfl, by decide, by unfold floatText; simp [h], by simp [h]⟩
  · obtain ⟨c, r, e, hc⟩ := decimalText_head (m := (P (ofBits x).mag).1) (P (ofBits x).mag).2
    exact ⟨_, c, r, e, hc, by unfold floatText; simp [h], by simp [h]⟩

theorem digit_not_blank {c : Char} (h : c.isDigit = true) : ¬ blank c := by
  rintro (rfl | rfl | rfl | rfl) <;> exact absurd h (by decide)

/-- A number begins with a digit or a sign. -/
theorem parseValue_number {d : Nat} {neg : Bool} {body c : _} {r : List Char} (hb : body = c :: r) (hc : c.isDigit = true) :
    parseValue (d + 1) ((if neg then '-' :: body else body)) = parseNumber neg body := by
  subst hb
  cases neg
  · have h1 : ∀ x : Char, x.isDigit = false → c ≠ x := by rintro x hx rfl; rw [hx] at hc; cases hc
    simp only [Bool.false_eq_true, if_false]
    rw [parseValue, skip_cons (digit_not_blank hc)]
    simp only [if_neg (h1 'n' (by decide)), if_neg (h1 't' (by decide)), if_neg (h1 'f' (by decide)), if_neg (h1 '-' (by decide)),
      if_pos hc]
  · simp only [if_true]
    rw [parseValue, skip_cons (by unfold blank; decide)]
    simp only [if_true, if_neg (by decide : ¬ '-' = 'n'), if_neg (by decide : ¬ '-' = 't'), if_neg (by decide : ¬ '-' = 'f')]

theorem flt_read {P : Nat → Nat × Int} (hP : Prints P) {d : Nat} (x : F32) (hx : x.toNat / 2 ^ 23 % 256 ≠ 255) {rest : List Char}
    (hr : Stops rest) : parseValue (d + 1) (floatText P x ++ rest) = some (.flt x, rest) := by
  have hxl : x.toNat < 2 ^ 32 := x.toNat_lt
  have hmag : (ofBits x).mag < single.inf := by
    show x.toNat % 2 ^ 31 < 255 * 2 ^ 23
    omega
  obtain ⟨body, c, r, hb, hc, ht, hbody⟩ := floatText_cases P x
  have hread : parseNumber (ofBits x).neg (body ++ rest) = some (.flt x, rest) := by
    have hbits : toBits ⟨(ofBits x).neg, (ofBits x).mag⟩ = x := toBits_ofBits x
    rw [hbody]
    split
    · rename_i h0
      rw [zero_read _ hr, ← h0, hbits]
    · rename_i h0
      rw [decimalText_read _ hmag (hP _ (by omega) hmag) hr, hbits]
  rw [ht]
  have e : (if (ofBits x).neg = true then '-' :: body else body) ++ rest =
      (if (ofBits x).neg = true then '-' :: (body ++ rest) else body ++ rest) := by split <;> rfl
  rw [e, parseValue_number (c := c) (r := r ++ rest) (by rw [hb]; rfl) hc, hread]

theorem natText_cons (n : Nat) : ∃ c r, natText n = c :: r ∧ c.isDigit = true := by
  have hd := natText_digits n
  cases hn : natText n with
  | nil => exact absurd hn Nat.toDigits_ne_nil
  | cons c cs => rw [hn] at hd; exact ⟨c, cs, rfl, hd c (by simp)⟩

theorem num_read {d : Nat} (n : Int) (h1 : -2 ^ 63 ≤ n) (h2 : n < 2 ^ 64) {rest : List Char} (hr : Stops rest) :
    parseValue (d + 1) (intText n ++ rest) = some (.num n, rest) := by
  obtain ⟨c, r, hb, hc⟩ := natText_cons n.natAbs
  have ht : intText n = (if decide (n < 0) = true then '-' :: natText n.natAbs else natText n.natAbs) := by
    unfold intText; simp
  have e : intText n ++ rest = (if decide (n < 0) = true then '-' :: (natText n.natAbs ++ rest) else natText n.natAbs ++ rest) := by
    rw [ht]; split <;> rfl
  rw [e, parseValue_number (c := c) (r := r ++ rest) (by rw [hb]; rfl) hc]
  exact intText_read n h1 h2 hr _ _ ht (by simp)

theorem stops_cons {c : Char} {r : List Char} (h : c = ',' ∨ c = '\n') : Stops (c :: r) := by
  rintro _ _ ⟨⟩
  rcases h with rfl | rfl <;> decide

theorem stops_nil : Stops [] := by rintro _ _ ⟨⟩

theorem stops_newLine (n : Nat) (r : List Char) : Stops (newLine n ++ r) := stops_cons (.inr rfl)

theorem stops_list (P : Nat → Nat × Int) (ind n : Nat) (l : List J) (r : List Char) :
    Stops (prettyList P ind l ++ (newLine n ++ r)) := by
  cases l with
  | nil => exact stops_newLine n r
  | cons j l => exact stops_cons (.inl rfl)

theorem stops_entries (P : Nat → Nat × Int) (ind n : Nat) (l : List (String × J)) (r : List Char) :
    Stops (prettyEntries P ind l ++ (newLine n ++ r)) := by
  cases l with
  | nil => exact stops_newLine n r
  | cons e l => exact stops_cons (.inl rfl)

/-- The first character of a value. -/
theorem pretty_head (P : Nat → Nat × Int) (ind : Nat) (j : J) : ∃ c r, pretty P ind j = c :: r ∧ ¬ blank c ∧ c ≠ ']' := by
  have hdig : ∀ c : Char, c.isDigit = true → ¬ blank c ∧ c ≠ ']' := by
    intro c hc
    exact ⟨digit_not_blank hc, by rintro rfl; exact absurd hc (by decide)⟩
  cases j with
  | null => exact ⟨'n', _, rfl, by unfold blank; decide, by decide⟩
  | bool b =>
    cases b
    · exact ⟨'f', _, rfl, by unfold blank; decide, by decide⟩
    · exact ⟨'t', _, rfl, by unfold blank; decide, by decide⟩
  | num n =>
    obtain ⟨c, r, e, hc⟩ := natText_cons n.natAbs
    rw [pretty, intText]
    split
    · exact ⟨'-', _, rfl, by unfold blank; decide, by decide⟩
    · exact ⟨c, r, e, hdig c hc⟩
  | flt x =>
    obtain ⟨body, c, r, hb, hc, ht, -⟩ := floatText_cases P x
    rw [pretty, ht]
    split
    · exact ⟨'-', _, rfl, by unfold blank; decide, by decide⟩
    · exact ⟨c, r, hb, hdig c hc⟩
  | str s => exact ⟨'"', _, rfl, by unfold blank; decide, by decide⟩
  | arr l =>
    cases l with
    | nil => exact ⟨'[', _, rfl, by unfold blank; decide, by decide⟩
    | cons j l => exact ⟨'[', _, rfl, by unfold blank; decide, by decide⟩
  | obj l =>
    cases l with
    | nil => exact ⟨'{', _, rfl, by unfold blank; decide, by decide⟩
    | cons e l => obtain ⟨n, j⟩ := e; exact ⟨'{', _, rfl, by unfold blank; decide, by decide⟩

/-- Reading gives the value that was written, whatever follows. -/
def Reads (P : Nat → Nat × Int) (d ind : Nat) (j : J) : Prop :=
  ∀ rest, Stops rest → parseValue d (pretty P ind j ++ rest) = some (j, rest)

theorem str_read (P : Nat → Nat × Int) (d ind : Nat) (s : String) : Reads P (d + 1) ind (.str s) := by
  intro rest _
  obtain ⟨t, e1, e2⟩ := strText_read s rest
  rw [pretty, e1, parseValue, skip_cons (by unfold blank; decide)]
  simp only [if_true, if_neg (by decide : ¬ '"' = 'n'), if_neg (by decide : ¬ '"' = 't'), if_neg (by decide : ¬ '"' = 'f'),
    if_neg (by decide : ¬ '"' = '-'), if_neg (by decide : ¬ '"'.isDigit = true), e2]
  simp

theorem elements_step {value : List Char → Option (J × List Char)} {fuel : Nat} {cs r : List Char} {j : J}
    (h : value cs = some (j, r)) : parseElements value (fuel + 1) cs =
      match skip r with
      | [] => none
      | c :: r =>
        if c = ',' then (parseElements value fuel r).map fun p => (j :: p.1, p.2)
        else if c = ']' then some ([j], r)
        else none := by
  rw [parseElements, h]
  simp only
  cases skip r <;> rfl

theorem entries_step {value : List Char → Option (J × List Char)} {fuel : Nat} {cs r : List Char} {s : String} {j : J}
    {w : List Char} (hw : skip w = strText s ++ (':' :: cs)) (h : value cs = some (j, r)) : parseEntries value (fuel + 1) w =
      match skip r with
      | [] => none
      | c :: r =>
        if c = ',' then (parseEntries value fuel r).map fun p => ((s, j) :: p.1, p.2)
        else if c = '}' then some ([(s, j)], r)
        else none := by
  obtain ⟨t, e1, e2⟩ := strText_read s (':' :: cs)
  rw [parseEntries, hw, e1]
  simp only [if_true, e2, skip_cons (by unfold blank; decide : ¬ blank ':'), h, String.ofList_toList]
  cases skip r <;> rfl

theorem skip_pretty (P : Nat → Nat × Int) (ind : Nat) (j : J) (r : List Char) : skip (pretty P ind j ++ r) = pretty P ind j ++ r := by
  obtain ⟨c, t, e, h, -⟩ := pretty_head P ind j
  rw [e, List.cons_append, skip_cons h]

mutual
theorem pretty_read {P : Nat → Nat × Int} (hP : Prints P) : ∀ (j : J) (d ind : Nat), j.fits = true → j.depth < d → Reads P d ind j
  | _, 0, _, _, hd => absurd hd (Nat.not_lt_zero _)
  | .null, d + 1, ind, _, _ => fun rest _ => by
    rw [pretty, parseValue]
    rfl
  | .bool true, d + 1, ind, _, _ => fun rest _ => by
    rw [pretty, parseValue]
    rfl
  | .bool false, d + 1, ind, _, _ => fun rest _ => by
    rw [pretty, parseValue]
    rfl
  | .num n, d + 1, ind, hf, _ => fun rest hr => by
    simp only [J.fits, Bool.and_eq_true, decide_eq_true_eq] at hf
    rw [pretty]
    exact num_read n hf.1 hf.2 hr
  | .flt x, d + 1, ind, hf, _ => fun rest hr => by
    simp only [J.fits, decide_eq_true_eq] at hf
    rw [pretty]
    exact flt_read hP x hf hr
  | .str s, d + 1, ind, _, _ => str_read P d ind s
  | .arr [], d + 1, ind, _, hd => fun rest _ => by
    rw [J.depth] at hd
    rw [pretty, parseValue]
    have : ¬ d = 0 := by omega
    show (if d = 0 then none else _) = _
    rw [if_neg this]
    rfl
  | .arr (j :: l), d + 1, ind, hf, hd => fun rest _ => by
    rw [J.fits, J.fitsList, Bool.and_eq_true] at hf
    rw [J.depth, J.depthList] at hd
    have h1 := pretty_read hP j d (ind + 1) hf.1 (by omega)
    have h2 := list_read hP l d (ind + 1) ind hf.2 (by omega)
    have h0 : ¬ d = 0 := by omega
    obtain ⟨c, t, e, hc, hc2⟩ := pretty_head P (ind + 1) j
    have e0 : pretty P ind (.arr (j :: l)) ++ rest =
        '[' :: (newLine (ind + 1) ++ (pretty P (ind + 1) j ++ (prettyList P (ind + 1) l ++ (newLine ind ++ (']' :: rest))))) := by
      rw [pretty]; simp
    rw [e0, parseValue]
    show (if d = 0 then none else _) = _
    rw [if_neg h0, skip_newLine, skip_pretty]
    have h3 := h2 j (pretty P (ind + 1) j ++ (prettyList P (ind + 1) l ++ (newLine ind ++ (']' :: rest)))) rest
      (h1 _ (stops_list P (ind + 1) ind l _))
    rw [e, List.cons_append] at h3 ⊢
    simp only [if_neg hc2]
    rw [h3 _ (by
      have hlen : l.length ≤ (prettyList P (ind + 1) l).length := length_list P (ind + 1) l
      simp only [List.length_cons, List.length_append]
      omega)]
    rfl
  | .obj [], d + 1, ind, _, hd => fun rest _ => by
    rw [J.depth] at hd
    rw [pretty, parseValue]
    have : ¬ d = 0 := by omega
    show (if d = 0 then none else _) = _
    rw [if_neg this]
    rfl
  | .obj ((n, j) :: l), d + 1, ind, hf, hd => fun rest _ => by
    rw [J.fits, J.fitsEntries, Bool.and_eq_true] at hf
    rw [J.depth, J.depthEntries] at hd
    have h1 := pretty_read hP j d (ind + 1) hf.1 (by omega)
    have h2 := entries_read hP l d (ind + 1) ind hf.2 (by omega)
    have h0 : ¬ d = 0 := by omega
    have e0 : pretty P ind (.obj ((n, j) :: l)) ++ rest =
        '{' :: (newLine (ind + 1) ++ (strText n ++ (':' :: ' ' :: (pretty P (ind + 1) j ++ (prettyEntries P (ind + 1) l ++
          (newLine ind ++ ('}' :: rest))))))) := by
      rw [pretty]; simp
    rw [e0, parseValue]
    show (if d = 0 then none else _) = _
    have hq : ∀ r, skip (strText n ++ r) = strText n ++ r := fun r => skip_cons (by unfold blank; decide)
    rw [if_neg h0, skip_newLine, hq]
    have h3 := h2 n j (strText n ++ (':' :: ' ' :: (pretty P (ind + 1) j ++ (prettyEntries P (ind + 1) l ++
          (newLine ind ++ ('}' :: rest)))))) rest (h1 _ (stops_entries P (ind + 1) ind l _)) (hq _)
    have e : ∀ r, strText n ++ r = '"' :: (n.toList.flatMap escape ++ ['"'] ++ r) := fun r => rfl
    rw [e] at h3 ⊢
    simp only [if_neg (by decide : ¬ '"' = '}')]
    rw [h3 _ (by
      have hlen : l.length ≤ (prettyEntries P (ind + 1) l).length := length_entries P (ind + 1) l
      simp only [List.length_cons, List.length_append]
      omega)]
    rfl

theorem length_list (P : Nat → Nat × Int) (ind : Nat) : ∀ l : List J, l.length ≤ (prettyList P ind l).length
  | [] => Nat.le_refl _
  | j :: l => by
    have := length_list P ind l
    rw [prettyList]
    simp only [List.length_cons, List.length_append]
    omega

theorem length_entries (P : Nat → Nat × Int) (ind : Nat) : ∀ l : List (String × J), l.length ≤ (prettyEntries P ind l).length
  | [] => Nat.le_refl _
  | (n, j) :: l => by
    have := length_entries P ind l
    rw [prettyEntries]
    simp only [List.length_cons, List.length_append]
    omega

/-- The elements after one which is read. -/
theorem list_read {P : Nat → Nat × Int} (hP : Prints P) : ∀ (l : List J) (d ind n : Nat), J.fitsList l = true → J.depthList l < d →
    ∀ (j : J) (cs rest : List Char), parseValue d cs = some (j, prettyList P ind l ++ (newLine n ++ (']' :: rest))) →
      ∀ fuel, l.length < fuel → parseElements (parseValue d) fuel cs = some (j :: l, rest)
  | _, _, _, _, _, _, _, _, _, _, 0, hl => absurd hl (Nat.not_lt_zero _)
  | [], d, ind, n, _, _, j, cs, rest, h, fuel + 1, _ => by
    rw [elements_step h]
    show (match skip (newLine n ++ (']' :: rest)) with | [] => none | c :: r => _) = _
    rw [skip_newLine, skip_cons (by unfold blank; decide)]
    rfl
  | k :: l, d, ind, n, hf, hd, j, cs, rest, h, fuel + 1, hl => by
    rw [J.fitsList, Bool.and_eq_true] at hf
    rw [J.depthList] at hd
    have h1 := pretty_read hP k d ind hf.1 (by omega)
    rw [elements_step h, prettyList, List.cons_append, skip_cons (by unfold blank; decide)]
    simp only [if_true]
    have h2 : parseValue d (newLine ind ++ (pretty P ind k ++ prettyList P ind l) ++ (newLine n ++ ']' :: rest)) =
        some (k, prettyList P ind l ++ (newLine n ++ (']' :: rest))) := by
      rw [List.append_assoc, parseValue_skip (skip_newLine ind _), List.append_assoc]
      exact h1 _ (stops_list P ind n l _)
    rw [list_read hP l d ind n hf.2 (by omega) k _ rest h2 fuel (by simpa using hl)]
    rfl

/-- The entries from one on whose value is read. -/
theorem entries_read {P : Nat → Nat × Int} (hP : Prints P) : ∀ (l : List (String × J)) (d ind n : Nat), J.fitsEntries l = true →
    J.depthEntries l < d → ∀ (s : String) (j : J) (w rest : List Char),
      parseValue d (pretty P ind j ++ (prettyEntries P ind l ++ (newLine n ++ ('}' :: rest)))) =
        some (j, prettyEntries P ind l ++ (newLine n ++ ('}' :: rest))) →
      skip w = strText s ++ (':' :: ' ' :: (pretty P ind j ++ (prettyEntries P ind l ++ (newLine n ++ ('}' :: rest))))) →
      ∀ fuel, l.length < fuel → parseEntries (parseValue d) fuel w = some ((s, j) :: l, rest)
  | _, _, _, _, _, _, _, _, _, _, _, _, 0, hl => absurd hl (Nat.not_lt_zero _)
  | [], d, ind, n, _, _, s, j, w, rest, h, hw, fuel + 1, _ => by
    have h' : parseValue d (' ' :: (pretty P ind j ++ (prettyEntries P ind [] ++ (newLine n ++ ('}' :: rest))))) =
        some (j, prettyEntries P ind [] ++ (newLine n ++ ('}' :: rest))) := by
      rw [← h]
      exact parseValue_skip (by rw [skip, if_pos (.inl rfl)])
    rw [entries_step hw h']
    show (match skip (newLine n ++ ('}' :: rest)) with | [] => none | c :: r => _) = _
    rw [skip_newLine, skip_cons (by unfold blank; decide)]
    rfl
  | (t, k) :: l, d, ind, n, hf, hd, s, j, w, rest, h, hw, fuel + 1, hl => by
    rw [J.fitsEntries, Bool.and_eq_true] at hf
    rw [J.depthEntries] at hd
    have h1 := pretty_read hP k d ind hf.1 (by omega)
    have h' : parseValue d (' ' :: (pretty P ind j ++ (prettyEntries P ind ((t, k) :: l) ++ (newLine n ++ ('}' :: rest))))) =
        some (j, prettyEntries P ind ((t, k) :: l) ++ (newLine n ++ ('}' :: rest))) := by
      rw [← h]
      exact parseValue_skip (by rw [skip, if_pos (.inl rfl)])
    rw [entries_step hw h', prettyEntries, List.cons_append, skip_cons (by unfold blank; decide)]
    simp only [if_true]
    have hq : skip (newLine ind ++ (strText t ++ (':' :: ' ' :: (pretty P ind k ++ prettyEntries P ind l))) ++
        (newLine n ++ ('}' :: rest))) =
        strText t ++ (':' :: ' ' :: (pretty P ind k ++ (prettyEntries P ind l ++ (newLine n ++ ('}' :: rest))))) := by
      rw [List.append_assoc, skip_newLine]
      have e : strText t ++ (':' :: ' ' :: (pretty P ind k ++ prettyEntries P ind l)) ++ (newLine n ++ ('}' :: rest)) =
          strText t ++ (':' :: ' ' :: (pretty P ind k ++ (prettyEntries P ind l ++ (newLine n ++ ('}' :: rest))))) := by simp
      rw [e]
      exact skip_cons (by unfold blank; decide)
    rw [entries_read hP l d ind n hf.2 (by omega) t k _ rest (h1 _ (stops_entries P ind n l _)) hq fuel (by simpa using hl)]
    rfl
end

/-- The text of a value is read as the value. -/
theorem fromText_toText {P : Nat → Nat × Int} (hP : Prints P) (j : J) (hf : j.fits = true) (hd : j.depth ≤ 127) :
    fromText (toText P j) = some j := by
  have h := pretty_read hP j 128 0 hf (by omega) [] stops_nil
  rw [List.append_nil] at h
  rw [fromText, toText, String.toList_ofList, h]
  rfl

end Json
end Verif
