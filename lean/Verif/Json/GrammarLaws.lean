import Verif.Json.GrammarNumber
import Verif.Json.GrammarString
import Verif.Json.TextDeep
/-!
# The parser reads exactly the texts of the grammar
-/

namespace Verif.Json

/-- The value of the text of a number: what the parser reads if it is given nothing else. -/
def NumberValue (t : List Char) (j : J) : Prop := fromText (String.ofList t) = some j

theorem skip_split : ∀ l : List Char, ∃ a, Space a ∧ l = a ++ skip l
  | [] => ⟨[], by simp [Space], rfl⟩
  | c :: cs => by
    rw [skip]
    split
    · rename_i h
      obtain ⟨a, ha, e⟩ := skip_split cs
      refine ⟨c :: a, fun x hx => ?_, by rw [List.cons_append, ← e]⟩
      rcases List.mem_cons.mp hx with rfl | hx
      exacts [h, ha x hx]
    · exact ⟨[], by simp [Space], rfl⟩

theorem space_skip {a : List Char} (h : Space a) (r : List Char) : skip (a ++ r) = skip r := skip_blank h

theorem stops_space {a r : List Char} (h : Space a) (hr : Stops r) : Stops (a ++ r) := by
  cases a with
  | nil => exact hr
  | cons c a =>
    rintro _ _ ⟨⟩
    rcases h c (by simp) with rfl | rfl | rfl | rfl <;> decide

theorem stops_close {c : Char} {r : List Char} (h : c = ',' ∨ c = ']' ∨ c = '}') : Stops (c :: r) := by
  rintro _ _ ⟨⟩
  rcases h with rfl | rfl | rfl <;> decide

/-! ## Numbers -/

theorem unsigned_head {u : List Char} (h : Unsigned u) : ∃ c r, u = c :: r ∧ c.isDigit = true := by
  obtain ⟨i, f, e, hi, -, -, rfl⟩ := h
  rcases hi with rfl | ⟨hd, -⟩
  · exact ⟨'0', _, rfl, by decide⟩
  · obtain ⟨c, r, rfl, hc⟩ := digits_head hd
    exact ⟨c, _, rfl, hc⟩

theorem number_cases {t : List Char} (h : NumberText t) : ∃ (neg : Bool) (u : List Char), Unsigned u ∧ t = if neg then '-' :: u else u := by
  obtain ⟨u, hu, rfl | rfl⟩ := h
  exacts [⟨false, t, hu, rfl⟩, ⟨true, u, hu, rfl⟩]

theorem number_parse (d : Nat) (neg : Bool) {u : List Char} (hu : Unsigned u) (rest : List Char) :
    parseValue (d + 1) ((if neg then '-' :: u else u) ++ rest) = parseNumber neg (u ++ rest) := by
  obtain ⟨c, r, rfl, hc⟩ := unsigned_head hu
  have := parseValue_number (d := d) (neg := neg) (body := c :: r ++ rest) (c := c) (r := r ++ rest) rfl hc
  rw [← this]
  cases neg <;> rfl

theorem digits_not_blank {ds : List Char} (h : Digits ds) : ∀ c ∈ ds, ¬ blank c := fun c hc => digit_not_blank (h.2 c hc)

theorem unsigned_not_blank {u : List Char} (h : Unsigned u) : ∀ c ∈ u, ¬ blank c := by
  obtain ⟨i, f, e, hi, hf, he, rfl⟩ := h
  intro c hc
  rcases List.mem_append.mp hc with hc | hc
  · rcases hi with rfl | ⟨hd, -⟩
    · rw [List.mem_singleton.mp hc]; unfold blank; decide
    · exact digits_not_blank hd c hc
  rcases List.mem_append.mp hc with hc | hc
  · rcases hf with rfl | ⟨ds, hd, rfl⟩
    · cases hc
    · rcases List.mem_cons.mp hc with rfl | hc
      · unfold blank; decide
      · exact digits_not_blank hd c hc
  · rcases he with rfl | ⟨x, sign, ds, hx, hs, hd, rfl⟩
    · cases hc
    · rcases List.mem_cons.mp hc with rfl | hc
      · rcases hx with rfl | rfl <;> (unfold blank; decide)
      rcases List.mem_append.mp hc with hc | hc
      · rcases hs with rfl | rfl | rfl
        · cases hc
        · rw [List.mem_singleton.mp hc]; unfold blank; decide
        · rw [List.mem_singleton.mp hc]; unfold blank; decide
      · exact digits_not_blank hd c hc

/-- The value of a number is what the parser of numbers finds. -/
theorem numberValue_iff (neg : Bool) {u : List Char} (hu : Unsigned u) (j : J) :
    NumberValue (if neg then '-' :: u else u) j ↔ parseNumber neg u = some (j, []) := by
  have h := number_parse 127 neg hu []
  rw [List.append_nil, List.append_nil] at h
  unfold NumberValue fromText
  rw [String.toList_ofList, h]
  constructor
  · intro h1
    cases h2 : parseNumber neg u with
    | none => rw [h2] at h1; cases h1
    | some p =>
      obtain ⟨j', r⟩ := p
      rw [h2] at h1
      simp only at h1
      split at h1
      · rename_i hr
        obtain rfl := Option.some.inj h1
        obtain ⟨v, -, e, -⟩ := parseNumber_split h2
        cases r with
        | nil => rfl
        | cons c r => exact absurd (skip_eq_nil.mp hr c (by simp)) (unsigned_not_blank hu c (by rw [e]; simp))
      · cases h1
  · intro h1
    rw [h1]
    rfl

theorem number_read {t : List Char} {j : J} (ht : NumberText t) (hj : NumberValue t j) (d : Nat) {rest : List Char} (hr : Stops rest) :
    parseValue (d + 1) (t ++ rest) = some (j, rest) := by
  obtain ⟨neg, u, hu, rfl⟩ := number_cases ht
  rw [number_parse d neg hu]
  exact parseNumber_append ((numberValue_iff neg hu j).mp hj) rest (.inr hr)

theorem spells_number {N : List Char → J → Prop} {j : J} {t : List Char} (hj : isNumber j = true) (h1 : NumberText t) (h2 : N t j) :
    Spells N j t ∧ j.depth = 0 := by
  cases j <;> first | (cases hj; done) | exact ⟨⟨h1, h2⟩, rfl⟩

/-! ## From a text of the grammar to the value -/

/-- A value begins with a character that is neither blank nor closes anything. -/
theorem spells_head {N : List Char → J → Prop} {j : J} {t : List Char} (h : Spells N j t) :
    ∃ c r, t = c :: r ∧ ¬ blank c ∧ c ≠ ']' ∧ c ≠ '}' := by
  have num : NumberText t → ∃ c r, t = c :: r ∧ ¬ blank c ∧ c ≠ ']' ∧ c ≠ '}' := by
    intro h
    obtain ⟨neg, u, hu, rfl⟩ := number_cases h
    obtain ⟨c, r, rfl, hc⟩ := unsigned_head hu
    cases neg
    · exact ⟨c, r, rfl, digit_not_blank hc, by rintro rfl; exact absurd hc (by decide), by rintro rfl; exact absurd hc (by decide)⟩
    · exact ⟨'-', _, rfl, by unfold blank; decide, by decide, by decide⟩
  cases j with
  | null => cases h; exact ⟨'n', _, rfl, by unfold blank; decide, by decide, by decide⟩
  | bool b =>
    cases b
    · cases h; exact ⟨'f', _, rfl, by unfold blank; decide, by decide, by decide⟩
    · cases h; exact ⟨'t', _, rfl, by unfold blank; decide, by decide, by decide⟩
  | num n => exact num h.1
  | flt n => exact num h.1
  | str s => obtain ⟨b, -, rfl⟩ := h; exact ⟨'"', _, rfl, by unfold blank; decide, by decide, by decide⟩
  | arr l => obtain ⟨b, rfl, -⟩ := h; exact ⟨'[', _, rfl, by unfold blank; decide, by decide, by decide⟩
  | obj l => obtain ⟨b, rfl, -⟩ := h; exact ⟨'{', _, rfl, by unfold blank; decide, by decide, by decide⟩

theorem list_head {N : List Char → J → Prop} {l : List J} {b : List Char} (h : SpellsList N l b) (r : List Char) :
    ∃ c t, skip (b ++ r) = c :: t ∧ ¬ blank c ∧ c ≠ ']' := by
  cases l with
  | nil => exact h.elim
  | cons j l =>
    obtain ⟨a, v, b', r', rfl, ha, hv, -, -⟩ := h
    obtain ⟨c, t, rfl, h1, h2, -⟩ := spells_head hv
    refine ⟨c, t ++ (b' ++ r') ++ r, ?_, h1, h2⟩
    rw [List.append_assoc, space_skip ha, List.cons_append, List.cons_append, skip_cons h1]

theorem entries_head {N : List Char → J → Prop} {l : List (String × J)} {b : List Char} (h : SpellsEntries N l b) (r : List Char) :
    ∃ c t, skip (b ++ r) = c :: t ∧ ¬ blank c ∧ c ≠ '}' := by
  match l, h with
  | [], h => exact h.elim
  | (n, j) :: l, h =>
    obtain ⟨a, k, a', a'', v, b', r', rfl, ha, ⟨kb, -, rfl⟩, -⟩ := h
    refine ⟨'"', (kb ++ ['"']) ++ (a' ++ (':' :: (a'' ++ (v ++ (b' ++ r'))))) ++ r, ?_, by unfold blank; decide, by decide⟩
    rw [List.append_assoc, space_skip ha, List.cons_append, List.cons_append, skip_cons (by unfold blank; decide)]

theorem list_length {N : List Char → J → Prop} : ∀ {l : List J} {b : List Char}, SpellsList N l b → l.length ≤ b.length
  | [], _, h => h.elim
  | j :: l, _, ⟨a, v, b', r, rfl, _, hv, _, hr⟩ => by
    obtain ⟨c, t, rfl, -⟩ := spells_head hv
    simp only [List.length_append, List.length_cons]
    rcases hr with ⟨rfl, rfl⟩ | ⟨r', rfl, hr'⟩
    · simp only [List.length_nil]
      omega
    · have := list_length hr'
      simp only [List.length_cons]
      omega

theorem entries_length {N : List Char → J → Prop} : ∀ {l : List (String × J)} {b : List Char}, SpellsEntries N l b → l.length ≤ b.length
  | [], _, h => h.elim
  | (n, j) :: l, _, ⟨a, k, a', a'', v, b', r, rfl, _, _, _, _, _, _, hr⟩ => by
    simp only [List.length_append, List.length_cons]
    rcases hr with ⟨rfl, rfl⟩ | ⟨r', rfl, hr'⟩
    · simp only [List.length_nil]
      omega
    · have := entries_length hr'
      simp only [List.length_cons]
      omega

theorem list_skip_length {N : List Char → J → Prop} {l : List J} {b : List Char} (h : SpellsList N l b) (rest : List Char) :
    l.length ≤ (skip (b ++ rest)).length := by
  cases l with
  | nil => exact h.elim
  | cons j l =>
    obtain ⟨a, v, b', r, rfl, ha, hv, hb, hr⟩ := h
    have hl := list_length (l := j :: l) (b := v ++ (b' ++ r)) ⟨[], v, b', r, rfl, by simp [Space], hv, hb, hr⟩
    obtain ⟨c, t, rfl, h1, -⟩ := spells_head hv
    rw [List.append_assoc, space_skip ha, List.cons_append, List.cons_append, skip_cons h1]
    simp only [List.length_append, List.length_cons] at hl ⊢
    omega

theorem entries_skip_length {N : List Char → J → Prop} {l : List (String × J)} {b : List Char} (h : SpellsEntries N l b) (rest : List Char) :
    l.length ≤ (skip (b ++ rest)).length := by
  match l, h with
  | [], h => exact h.elim
  | (n, j) :: l, h =>
    obtain ⟨a, k, a', a'', v, b', r, rfl, ha, hk, ha', ha'', hv, hb, hr⟩ := h
    have hl := entries_length (l := (n, j) :: l) (b := k ++ (a' ++ (':' :: (a'' ++ (v ++ (b' ++ r))))))
      ⟨[], k, a', a'', v, b', r, rfl, by simp [Space], hk, ha', ha'', hv, hb, hr⟩
    obtain ⟨kb, -, rfl⟩ := hk
    rw [List.append_assoc, space_skip ha, List.cons_append, List.cons_append, skip_cons (by unfold blank; decide)]
    simp only [List.length_append, List.length_cons] at hl ⊢
    omega

/-- The parser of elements ignores white space in front. -/
theorem elements_skip {d fuel : Nat} {a b : List Char} (h : skip a = skip b) :
    parseElements (parseValue d) fuel a = parseElements (parseValue d) fuel b := by
  cases fuel with
  | zero => rfl
  | succ fuel => rw [parseElements, parseElements, parseValue_skip h]

theorem entries_skip {value : List Char → Option (J × List Char)} {fuel : Nat} {a b : List Char} (h : skip a = skip b) :
    parseEntries value fuel a = parseEntries value fuel b := by
  cases fuel with
  | zero => rfl
  | succ fuel => rw [parseEntries, parseEntries, h]

theorem skip_skip {l : List Char} {c : Char} {t : List Char} (h : skip l = c :: t) (hc : ¬ blank c) : skip (c :: t) = skip l := by
  rw [skip_cons hc, h]

mutual
theorem spells_read : ∀ (j : J) (d : Nat) {t : List Char}, Spells NumberValue j t → j.depth < d → ∀ {rest : List Char}, Stops rest →
    parseValue d (t ++ rest) = some (j, rest)
  | _, 0, _, _, hd, _, _ => absurd hd (Nat.not_lt_zero _)
  | .null, d + 1, _, rfl, _, rest, _ => by rw [parseValue]; rfl
  | .bool true, d + 1, _, rfl, _, rest, _ => by rw [parseValue]; rfl
  | .bool false, d + 1, _, rfl, _, rest, _ => by rw [parseValue]; rfl
  | .num n, d + 1, _, h, _, rest, hr => number_read h.1 h.2 d hr
  | .flt n, d + 1, _, h, _, rest, hr => number_read h.1 h.2 d hr
  | .str s, d + 1, t, h, _, rest, _ => by
    obtain ⟨b, e1, e2⟩ := string_read h rest
    rw [e1, parseValue, skip_cons (by unfold blank; decide)]
    simp only [if_true, if_neg (by decide : ¬ '"' = 'n'), if_neg (by decide : ¬ '"' = 't'), if_neg (by decide : ¬ '"' = 'f'),
      if_neg (by decide : ¬ '"' = '-'), if_neg (by decide : ¬ '"'.isDigit = true), e2, Option.map_some, String.ofList_toList]
  | .arr l, d + 1, _, ⟨b, rfl, h⟩, hd, rest, _ => by
    rw [J.depth] at hd
    have e : '[' :: (b ++ [']']) ++ rest = '[' :: (b ++ (']' :: rest)) := by simp
    rw [e, parseValue, skip_cons (by unfold blank; decide)]
    simp only [if_true, if_neg (by decide : ¬ '[' = 'n'), if_neg (by decide : ¬ '[' = 't'), if_neg (by decide : ¬ '[' = 'f'),
      if_neg (by decide : ¬ '[' = '-'), if_neg (by decide : ¬ '['.isDigit = true), if_neg (by decide : ¬ '[' = '"'),
      if_neg (show d ≠ 0 by omega)]
    rcases h with ⟨rfl, hb⟩ | h
    · rw [space_skip hb, skip_cons (by unfold blank; decide)]
      rfl
    · obtain ⟨c, t, e1, h1, h2⟩ := list_head h (']' :: rest)
      rw [e1]
      simp only [if_neg h2]
      have hlen : l.length ≤ (c :: t).length := by
        rw [← e1]
        exact list_skip_length h _
      rw [elements_skip (skip_skip e1 h1), list_spells l d h (by omega) _ hlen]
      rfl
  | .obj l, d + 1, _, ⟨b, rfl, h⟩, hd, rest, _ => by
    rw [J.depth] at hd
    have e : '{' :: (b ++ ['}']) ++ rest = '{' :: (b ++ ('}' :: rest)) := by simp
    rw [e, parseValue, skip_cons (by unfold blank; decide)]
    simp only [if_true, if_neg (by decide : ¬ '{' = 'n'), if_neg (by decide : ¬ '{' = 't'), if_neg (by decide : ¬ '{' = 'f'),
      if_neg (by decide : ¬ '{' = '-'), if_neg (by decide : ¬ '{'.isDigit = true), if_neg (by decide : ¬ '{' = '"'),
      if_neg (by decide : ¬ '{' = '['), if_neg (show d ≠ 0 by omega)]
    rcases h with ⟨rfl, hb⟩ | h
    · rw [space_skip hb, skip_cons (by unfold blank; decide)]
      rfl
    · obtain ⟨c, t, e1, h1, h2⟩ := entries_head h ('}' :: rest)
      rw [e1]
      simp only [if_neg h2]
      have hlen : l.length ≤ (c :: t).length := by
        rw [← e1]
        exact entries_skip_length h _
      rw [entries_skip (skip_skip e1 h1), entries_spells l d h (by omega) _ hlen]
      rfl

theorem list_spells : ∀ (l : List J) (d : Nat) {b : List Char}, SpellsList NumberValue l b → J.depthList l < d →
    ∀ (fuel : Nat), l.length ≤ fuel → ∀ {rest : List Char}, parseElements (parseValue d) fuel (b ++ (']' :: rest)) = some (l, rest)
  | [], _, _, h, _, _, _, _ => h.elim
  | j :: l, d, _, _, _, 0, hf, _ => absurd hf (by simp)
  | j :: l, d, _, ⟨a, v, b, r, rfl, ha, hv, hb, hr⟩, hd, fuel + 1, hf, rest => by
    rw [J.depthList] at hd
    have hst : Stops (b ++ (r ++ (']' :: rest))) := by
      apply stops_space hb
      rcases hr with ⟨-, rfl⟩ | ⟨r', rfl, -⟩
      exacts [stops_close (.inr (.inl rfl)), stops_close (.inl rfl)]
    have h1 := spells_read j d hv (by omega) hst
    have h2 : parseValue d (a ++ (v ++ (b ++ r)) ++ ']' :: rest) = some (j, b ++ (r ++ (']' :: rest))) := by
      rw [← h1]
      apply parseValue_skip
      rw [List.append_assoc, space_skip ha]
      simp only [List.append_assoc]
    rw [elements_step h2, space_skip hb]
    rcases hr with ⟨rfl, rfl⟩ | ⟨r', rfl, hr'⟩
    · rw [List.nil_append, skip_cons (by unfold blank; decide)]
      rfl
    · rw [List.cons_append, skip_cons (by unfold blank; decide)]
      simp only [if_true]
      rw [list_spells l d hr' (by omega) fuel (by simpa using hf)]
      rfl

theorem entries_spells : ∀ (l : List (String × J)) (d : Nat) {b : List Char}, SpellsEntries NumberValue l b → J.depthEntries l < d →
    ∀ (fuel : Nat), l.length ≤ fuel → ∀ {rest : List Char}, parseEntries (parseValue d) fuel (b ++ ('}' :: rest)) = some (l, rest)
  | [], _, _, h, _, _, _, _ => h.elim
  | (n, j) :: l, d, _, _, _, 0, hf, _ => absurd hf (by simp)
  | (n, j) :: l, d, _, ⟨a, k, a', a'', v, b, r, rfl, ha, hk, ha', ha'', hv, hb, hr⟩, hd, fuel + 1, hf, rest => by
    rw [J.depthEntries] at hd
    have hst : Stops (b ++ (r ++ ('}' :: rest))) := by
      apply stops_space hb
      rcases hr with ⟨-, rfl⟩ | ⟨r', rfl, -⟩
      exacts [stops_close (.inr (.inr rfl)), stops_close (.inl rfl)]
    have h1 := spells_read j d hv (by omega) hst
    have h2 : parseValue d (a'' ++ (v ++ (b ++ (r ++ '}' :: rest)))) = some (j, b ++ (r ++ ('}' :: rest))) := by
      rw [← h1]
      exact parseValue_skip (space_skip ha'' _)
    obtain ⟨kb, e1, e2⟩ := string_read hk (a' ++ (':' :: (a'' ++ (v ++ (b ++ (r ++ '}' :: rest))))))
    have e : a ++ (k ++ (a' ++ (':' :: (a'' ++ (v ++ (b ++ r)))))) ++ '}' :: rest =
        a ++ (k ++ (a' ++ (':' :: (a'' ++ (v ++ (b ++ (r ++ '}' :: rest))))))) := by simp
    rw [e, parseEntries, space_skip ha, e1, skip_cons (by unfold blank; decide)]
    simp only [if_true, e2, space_skip ha']
    rw [skip_cons (by unfold blank; decide)]
    simp only [if_true, h2, space_skip hb, String.ofList_toList]
    rcases hr with ⟨rfl, rfl⟩ | ⟨r', rfl, hr'⟩
    · rw [List.nil_append, skip_cons (by unfold blank; decide)]
      rfl
    · rw [List.cons_append, skip_cons (by unfold blank; decide)]
      simp only [if_true]
      rw [entries_spells l d hr' (by omega) fuel (by simpa using hf)]
      rfl
end

/-! ## From the value to a text of the grammar -/

/-- What is read is a text of the grammar after white space. -/
def Sound (value : List Char → Option (J × List Char)) (d : Nat) : Prop :=
  ∀ l j r, value l = some (j, r) → ∃ a t, l = a ++ (t ++ r) ∧ Space a ∧ Spells NumberValue j t ∧ j.depth < d

theorem parseElements_split {value : List Char → Option (J × List Char)} {d : Nat} (hv : Sound value d) :
    ∀ {fuel : Nat} {l : List Char} {js : List J} {r : List Char}, parseElements value fuel l = some (js, r) →
      ∃ b, l = b ++ ']' :: r ∧ SpellsList NumberValue js b ∧ J.depthList js < d
  | 0, _, _, _, h => by cases h
  | fuel + 1, l, js, r, h => by
    rw [parseElements] at h
    cases h1 : value l with
    | none => rw [h1] at h; cases h
    | some p =>
      obtain ⟨j, r1⟩ := p
      rw [h1] at h
      obtain ⟨a, t, rfl, ha, ht, hd⟩ := hv l j r1 h1
      simp only at h
      obtain ⟨b, hb, e⟩ := skip_split r1
      cases h2 : skip r1 with
      | nil => rw [h2] at h; cases h
      | cons c r2 =>
        rw [h2] at h e
        simp only at h
        by_cases h3 : c = ','
        · rw [if_pos h3] at h
          simp only [Option.map_eq_some_iff] at h
          obtain ⟨⟨s1, r3⟩, h4, h5⟩ := h
          cases h5
          obtain ⟨b', rfl, h6, h7⟩ := parseElements_split hv h4
          refine ⟨a ++ (t ++ (b ++ (',' :: b'))), ?_, ⟨a, t, b, _, rfl, ha, ht, hb, .inr ⟨b', rfl, h6⟩⟩, ?_⟩
          · rw [e, h3]; simp
          · rw [J.depthList]; dsimp only; omega
        rw [if_neg h3] at h
        by_cases h4 : c = ']'
        · rw [if_pos h4] at h
          cases h
          refine ⟨a ++ (t ++ (b ++ [])), ?_, ⟨a, t, b, _, rfl, ha, ht, hb, .inl ⟨rfl, rfl⟩⟩, ?_⟩
          · rw [e, h4]; simp
          · rw [J.depthList, J.depthList]; omega
        · rw [if_neg h4] at h
          cases h

theorem parseEntries_split {value : List Char → Option (J × List Char)} {d : Nat} (hv : Sound value d) :
    ∀ {fuel : Nat} {l : List Char} {js : List (String × J)} {r : List Char}, parseEntries value fuel l = some (js, r) →
      ∃ b, l = b ++ '}' :: r ∧ SpellsEntries NumberValue js b ∧ J.depthEntries js < d
  | 0, _, _, _, h => by cases h
  | fuel + 1, l, js, r, h => by
    rw [parseEntries] at h
    obtain ⟨a, ha, e0⟩ := skip_split l
    cases h0 : skip l with
    | nil => rw [h0] at h; cases h
    | cons c0 l0 =>
    rw [h0] at h e0
    simp only at h
    by_cases hq : c0 = '"'
    case neg => rw [if_neg hq] at h; cases h
    rw [if_pos hq] at h
    cases hs : parseStr (l0.length + 1) l0 with
    | none => rw [hs] at h; cases h
    | some p =>
    obtain ⟨n, l1⟩ := p
    rw [hs] at h
    obtain ⟨k, hk, rfl⟩ := parseStr_split hs
    simp only at h
    obtain ⟨a', ha', e1⟩ := skip_split l1
    cases h1 : skip l1 with
    | nil => rw [h1] at h; cases h
    | cons c1 l2 =>
    rw [h1] at h e1
    simp only at h
    by_cases hc : c1 = ':'
    case neg => rw [if_neg hc] at h; cases h
    rw [if_pos hc] at h
    cases h1 : value l2 with
    | none => rw [h1] at h; cases h
    | some p =>
      obtain ⟨j, r1⟩ := p
      rw [h1] at h
      obtain ⟨a'', t, rfl, ha'', ht, hd⟩ := hv l2 j r1 h1
      simp only at h
      obtain ⟨b, hb, e⟩ := skip_split r1
      have hkey : StringText (String.ofList n) ('"' :: (k ++ ['"'])) := ⟨k, by rw [String.toList_ofList]; exact hk, rfl⟩
      cases h2 : skip r1 with
      | nil => rw [h2] at h; cases h
      | cons c r2 =>
        rw [h2] at h e
        simp only at h
        by_cases h3 : c = ','
        · rw [if_pos h3] at h
          simp only [Option.map_eq_some_iff] at h
          obtain ⟨⟨s1, r3⟩, h4, h5⟩ := h
          cases h5
          obtain ⟨b', rfl, h6, h7⟩ := parseEntries_split hv h4
          refine ⟨_, ?_, ⟨a, _, a', a'', t, b, _, rfl, ha, hkey, ha', ha'', ht, hb, .inr ⟨b', rfl, h6⟩⟩, ?_⟩
          · rw [e0, e1, e, h3, hc, hq]; simp
          · rw [J.depthEntries]; dsimp only; omega
        rw [if_neg h3] at h
        by_cases h4 : c = '}'
        · rw [if_pos h4] at h
          cases h
          refine ⟨_, ?_, ⟨a, _, a', a'', t, b, _, rfl, ha, hkey, ha', ha'', ht, hb, .inl ⟨rfl, rfl⟩⟩, ?_⟩
          · rw [e0, e1, e, h4, hc, hq]; simp
          · rw [J.depthEntries, J.depthEntries]; omega
        · rw [if_neg h4] at h
          cases h

theorem parseIdent_split {w : List Char} {v : J} {l : List Char} {j : J} {r : List Char} (h : parseIdent w v l = some (j, r)) :
    j = v ∧ l = w ++ r := by
  unfold parseIdent at h
  split at h
  · rename_i hw
    obtain ⟨t, rfl⟩ := List.isPrefixOf_iff_prefix.mp hw
    cases h
    simp
  · cases h

theorem parseValue_split : ∀ d, Sound (parseValue d) d
  | 0 => by rintro l j r ⟨⟩
  | d + 1 => by
    intro l j r h
    have ih := parseValue_split d
    rw [parseValue] at h
    obtain ⟨a, ha, e0⟩ := skip_split l
    cases h0 : skip l with
    | nil => rw [h0] at h; cases h
    | cons c t =>
    rw [h0] at h e0
    simp only at h
    rw [e0]
    have number : ∀ (neg : Bool) (u : List Char), (c :: t = if neg then '-' :: u else u) → parseNumber neg u = some (j, r) →
        ∃ a_1 t_1, a ++ c :: t = a_1 ++ (t_1 ++ r) ∧ Space a_1 ∧ Spells NumberValue j t_1 ∧ j.depth < d + 1 := by
      intro neg u e h
      obtain ⟨v, hv, rfl, h1⟩ := parseNumber_split h
      have hn : NumberText (if neg then '-' :: v else v) := by
        cases neg
        exacts [⟨v, hv, .inl rfl⟩, ⟨v, hv, .inr rfl⟩]
      obtain ⟨h2, h3⟩ := spells_number (parseNumber_number h) hn ((numberValue_iff neg hv j).mpr h1)
      refine ⟨a, _, ?_, ha, h2, by omega⟩
      rw [e]
      cases neg <;> rfl
    by_cases hc : c = 'n'
    · rw [if_pos hc] at h
      obtain ⟨rfl, rfl⟩ := parseIdent_split h
      exact ⟨a, _, by rw [hc]; rfl, ha, rfl, by rw [J.depth] <;> simp⟩
    rw [if_neg hc] at h; clear hc
    by_cases hc : c = 't'
    · rw [if_pos hc] at h
      obtain ⟨rfl, rfl⟩ := parseIdent_split h
      exact ⟨a, _, by rw [hc]; rfl, ha, rfl, by rw [J.depth] <;> simp⟩
    rw [if_neg hc] at h; clear hc
    by_cases hc : c = 'f'
    · rw [if_pos hc] at h
      obtain ⟨rfl, rfl⟩ := parseIdent_split h
      exact ⟨a, _, by rw [hc]; rfl, ha, rfl, by rw [J.depth] <;> simp⟩
    rw [if_neg hc] at h; clear hc
    by_cases hc : c = '-'
    · rw [if_pos hc] at h
      exact number true t (by rw [hc]; rfl) h
    rw [if_neg hc] at h; clear hc
    by_cases hc : c.isDigit = true
    · rw [if_pos hc] at h
      exact number false _ rfl h
    rw [if_neg hc] at h; clear hc
    by_cases hc : c = '"'
    · rw [if_pos hc] at h
      simp only [Option.map_eq_some_iff] at h
      obtain ⟨⟨s1, r3⟩, h4, h5⟩ := h
      cases h5
      obtain ⟨k, hk, rfl⟩ := parseStr_split h4
      refine ⟨a, '"' :: (k ++ ['"']), by rw [hc]; simp, ha, ⟨k, by rw [String.toList_ofList]; exact hk, rfl⟩, by rw [J.depth] <;> simp⟩
    rw [if_neg hc] at h; clear hc
    by_cases hc : c = '['
    · rw [if_pos hc] at h
      by_cases hd : d = 0
      · rw [if_pos hd] at h; cases h
      rw [if_neg hd] at h
      obtain ⟨w, hw, e1⟩ := skip_split t
      cases h1 : skip t with
      | nil => rw [h1] at h; cases h
      | cons e es =>
      rw [h1] at h e1
      simp only at h
      by_cases he : e = ']'
      · rw [if_pos he] at h; cases h
        refine ⟨a, '[' :: (w ++ [']']), by rw [hc, e1, he]; simp, ha, ⟨w, rfl, .inl ⟨rfl, hw⟩⟩, by rw [J.depth, J.depthList]; omega⟩
      rw [if_neg he] at h
      simp only [Option.map_eq_some_iff] at h
      obtain ⟨⟨s1, r3⟩, h4, h5⟩ := h
      cases h5
      obtain ⟨b, h6, h7, h8⟩ := parseElements_split ih h4
      cases s1 with
      | nil => exact h7.elim
      | cons x xs =>
      obtain ⟨a1, v, b1, r1, rfl, g1, g2⟩ := h7
      refine ⟨a, '[' :: ((w ++ a1) ++ (v ++ (b1 ++ r1)) ++ [']']), by rw [hc, e1, h6]; simp, ha, ⟨_, rfl, .inr ⟨w ++ a1, v, b1, r1, rfl, ?_, g2⟩⟩,
        by rw [J.depth]; dsimp only; omega⟩
      intro y hy
      rcases List.mem_append.mp hy with hy | hy
      exacts [hw y hy, g1 y hy]
    rw [if_neg hc] at h; clear hc
    by_cases hc : c = '{'
    · rw [if_pos hc] at h
      by_cases hd : d = 0
      · rw [if_pos hd] at h; cases h
      rw [if_neg hd] at h
      obtain ⟨w, hw, e1⟩ := skip_split t
      cases h1 : skip t with
      | nil => rw [h1] at h; cases h
      | cons e es =>
      rw [h1] at h e1
      simp only at h
      by_cases he : e = '}'
      · rw [if_pos he] at h; cases h
        refine ⟨a, '{' :: (w ++ ['}']), by rw [hc, e1, he]; simp, ha, ⟨w, rfl, .inl ⟨rfl, hw⟩⟩, by rw [J.depth, J.depthEntries]; omega⟩
      rw [if_neg he] at h
      simp only [Option.map_eq_some_iff] at h
      obtain ⟨⟨s1, r3⟩, h4, h5⟩ := h
      cases h5
      obtain ⟨b, h6, h7, h8⟩ := parseEntries_split ih h4
      match s1, h7, h8 with
      | [], h7, _ => exact h7.elim
      | (x, y) :: xs, h7, h8 =>
      obtain ⟨a1, k, a', a'', v, b1, r1, rfl, g1, g2⟩ := h7
      refine ⟨a, '{' :: ((w ++ a1) ++ (k ++ (a' ++ (':' :: (a'' ++ (v ++ (b1 ++ r1)))))) ++ ['}']), by rw [hc, e1, h6]; simp, ha,
        ⟨_, rfl, .inr ⟨w ++ a1, k, a', a'', v, b1, r1, rfl, ?_, g2⟩⟩, by rw [J.depth]; dsimp only; omega⟩
      intro y hy
      rcases List.mem_append.mp hy with hy | hy
      exacts [hw y hy, g1 y hy]
    rw [if_neg hc] at h
    cases h

/-- The parser accepts the texts of the grammar with at most 127 levels, and reads them as what they spell. -/
theorem fromText_iff (s : String) (j : J) : fromText s = some j ↔ j.depth ≤ 127 ∧ SpellsText NumberValue j s.toList := by
  unfold fromText
  constructor
  · intro h
    cases h1 : parseValue 128 s.toList with
    | none => rw [h1] at h; cases h
    | some p =>
      obtain ⟨j', r⟩ := p
      rw [h1] at h
      simp only at h
      split at h
      · rename_i hr
        obtain rfl := Option.some.inj h
        obtain ⟨a, t, e, ha, ht, hd⟩ := parseValue_split 128 _ _ _ h1
        exact ⟨by omega, a, t, r, e, ha, ht, skip_eq_nil.mp hr⟩
      · cases h
  · rintro ⟨hd, a, t, b, e, ha, ht, hb⟩
    have h1 := spells_read j 128 ht (by omega) (rest := b) (by
      have := stops_space hb stops_nil
      rwa [List.append_nil] at this)
    rw [e, parseValue_skip (space_skip ha _), h1]
    simp only
    rw [if_pos (skip_eq_nil.mpr hb)]

mutual
theorem Spells.weaken {N : List Char → J → Prop} : ∀ {j : J} {t : List Char}, Spells N j t → Spells (fun _ _ => True) j t
  | .null, _, h => h
  | .bool true, _, h => h
  | .bool false, _, h => h
  | .num _, _, h => ⟨h.1, trivial⟩
  | .flt _, _, h => ⟨h.1, trivial⟩
  | .str _, _, h => h
  | .arr _, _, ⟨b, e, h⟩ => ⟨b, e, h.imp_right SpellsList.weaken⟩
  | .obj _, _, ⟨b, e, h⟩ => ⟨b, e, h.imp_right SpellsEntries.weaken⟩

theorem SpellsList.weaken {N : List Char → J → Prop} : ∀ {l : List J} {t : List Char}, SpellsList N l t → SpellsList (fun _ _ => True) l t
  | [], _, h => h
  | j :: l, _, ⟨a, v, b, r, e, h1, h2, h3, h4⟩ => ⟨a, v, b, r, e, h1, h2.weaken, h3, h4.imp_right fun ⟨r', e, h⟩ => ⟨r', e, h.weaken⟩⟩

theorem SpellsEntries.weaken {N : List Char → J → Prop} : ∀ {l : List (String × J)} {t : List Char}, SpellsEntries N l t →
    SpellsEntries (fun _ _ => True) l t
  | [], _, h => h
  | (n, j) :: l, _, ⟨a, k, a', a'', v, b, r, e, h1, h2, h3, h4, h5, h6, h7⟩ =>
    ⟨a, k, a', a'', v, b, r, e, h1, h2, h3, h4, h5.weaken, h6, h7.imp_right fun ⟨r', e, h⟩ => ⟨r', e, h.weaken⟩⟩
end

theorem SpellsText.weaken {N : List Char → J → Prop} {j : J} {t : List Char} (h : SpellsText N j t) : SpellsText (fun _ _ => True) j t := by
  obtain ⟨a, v, b, e, h1, h2, h3⟩ := h
  exact ⟨a, v, b, e, h1, h2.weaken, h3⟩

end Verif.Json
