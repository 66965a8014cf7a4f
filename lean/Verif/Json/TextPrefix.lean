import Verif.Json.TextLaws
/-!
# The parser and a longer text

If a value is read, and is not a number at the end of the text, then it is read from every longer text too. A number is, too, if the text
goes on with a character that cannot be part of a number.
-/

namespace Verif.Json

theorem skip_append {l : List Char} {c : Char} {r : List Char} (h : skip l = c :: r) (q : List Char) : skip (l ++ q) = c :: (r ++ q) := by
  induction l with
  | nil => cases h
  | cons x l ih =>
    rw [skip] at h
    rw [List.cons_append, skip]
    split at h
    · rename_i hx
      rw [if_pos hx]
      exact ih h
    · rename_i hx
      rw [if_neg hx]
      cases h
      rfl

theorem dropDigits_append (q : List Char) : ∀ {l : List Char}, (dropDigits l).2 ≠ [] ∨ NoDigit q →
    dropDigits (l ++ q) = ((dropDigits l).1, (dropDigits l).2 ++ q)
  | [], h => by
    have h := h.resolve_left (fun e => e rfl)
    cases q with
    | nil => rfl
    | cons c cs =>
      show dropDigits (c :: cs) = (0, c :: cs)
      rw [dropDigits, if_neg (by rw [h c cs rfl]; decide)]
  | c :: cs, h => by
    rw [dropDigits] at h
    rw [List.cons_append, dropDigits, dropDigits]
    split
    · rename_i hc
      rw [if_pos hc] at h
      rw [dropDigits_append q h]
    · rfl

theorem scanInt_append (q : List Char) : ∀ {s : Nat} {l : List Char}, (scanInt s l).2.2 ≠ [] ∨ NoDigit q →
    scanInt s (l ++ q) = ((scanInt s l).1, (scanInt s l).2.1, (scanInt s l).2.2 ++ q)
  | s, [], h => by
    have h := h.resolve_left (fun e => e rfl)
    cases q with
    | nil => rfl
    | cons c cs =>
      show scanInt s (c :: cs) = (s, 0, c :: cs)
      rw [scanInt, if_neg (by rw [h c cs rfl]; decide)]
  | s, c :: cs, h => by
    rw [scanInt] at h
    rw [List.cons_append, scanInt, scanInt]
    by_cases hc : c.isDigit = true
    · simp only [if_pos hc] at h ⊢
      by_cases h2 : s * 10 + digitValue c < 2 ^ 64
      · simp only [if_pos h2] at h ⊢
        exact scanInt_append q h
      · simp only [if_neg h2] at h ⊢
        rw [← List.cons_append, dropDigits_append q h]
    · simp only [if_neg hc]
      rfl

theorem scanDec_append (q : List Char) : ∀ {s : Nat} {e : Int} {l : List Char}, (scanDec s e l).2.2 ≠ [] ∨ NoDigit q →
    scanDec s e (l ++ q) = ((scanDec s e l).1, (scanDec s e l).2.1, (scanDec s e l).2.2 ++ q)
  | s, e, [], h => by
    have h := h.resolve_left (fun e => e rfl)
    cases q with
    | nil => rfl
    | cons c cs =>
      show scanDec s e (c :: cs) = (s, e, c :: cs)
      rw [scanDec, if_neg (by rw [h c cs rfl]; decide)]
  | s, e, c :: cs, h => by
    rw [scanDec] at h
    rw [List.cons_append, scanDec, scanDec]
    by_cases hc : c.isDigit = true
    · simp only [if_pos hc] at h ⊢
      by_cases h2 : s * 10 + digitValue c < 2 ^ 64
      · simp only [if_pos h2] at h ⊢
        exact scanDec_append q h
      · simp only [if_neg h2] at h ⊢
        rw [← List.cons_append, dropDigits_append q h]
    · simp only [if_neg hc]
      rfl

theorem scanExp_append (q : List Char) : ∀ {s : Nat} {l : List Char}, (scanExp s l).2 ≠ [] ∨ NoDigit q →
    scanExp s (l ++ q) = ((scanExp s l).1, (scanExp s l).2 ++ q)
  | s, [], h => by
    have h := h.resolve_left (fun e => e rfl)
    cases q with
    | nil => rfl
    | cons c cs =>
      show scanExp s (c :: cs) = (s, c :: cs)
      rw [scanExp, if_neg (by rw [h c cs rfl]; decide)]
  | s, c :: cs, h => by
    rw [scanExp] at h
    rw [List.cons_append, scanExp, scanExp]
    by_cases hc : c.isDigit = true
    · simp only [if_pos hc] at h ⊢
      exact scanExp_append q h
    · simp only [if_neg hc]
      rfl

theorem floatValue_append {neg : Bool} {s : Nat} {e : Int} {l : List Char} {j : J} {r : List Char} (h : floatValue neg s e l = some (j, r))
    (q : List Char) : r = l ∧ floatValue neg s e (l ++ q) = some (j, r ++ q) := by
  unfold floatValue at h ⊢
  cases hf : readFloat neg s e with
  | none => rw [hf] at h; cases h
  | some f =>
    rw [hf] at h
    cases h
    exact ⟨rfl, rfl⟩

theorem exponentDigits_append {neg : Bool} {s : Nat} {e : Int} {m : Bool} {l : List Char} {j : J} {r : List Char}
    (h : exponentDigits neg s e m l = some (j, r)) (q : List Char) (hr : r ≠ [] ∨ Stops q) :
    exponentDigits neg s e m (l ++ q) = some (j, r ++ q) := by
  cases l with
  | nil => cases h
  | cons c cs =>
    rw [exponentDigits] at h
    rw [List.cons_append, exponentDigits]
    by_cases hc : c.isDigit = true
    · simp only [if_pos hc] at h ⊢
      obtain ⟨e1, e2⟩ := floatValue_append h q
      rw [scanExp_append q (e1 ▸ hr.imp_right Stops.noDigit)]
      exact e2
    · rw [if_neg hc] at h
      cases h

theorem exponentPart_append {neg : Bool} {s : Nat} {e : Int} {l : List Char} {j : J} {r : List Char}
    (h : exponentPart neg s e l = some (j, r)) (q : List Char) (hr : r ≠ [] ∨ Stops q) : exponentPart neg s e (l ++ q) = some (j, r ++ q) := by
  cases l with
  | nil =>
    obtain ⟨rfl, e⟩ := floatValue_append h q
    have hr := hr.resolve_left (fun e => e rfl)
    cases q with
    | nil => exact h
    | cons c cs =>
      show exponentPart neg s _ (c :: cs) = _
      rw [exponentPart.eq_def]
      simp only
      rw [if_neg (by rintro (h | h); exacts [(hr c cs rfl).2.2.1 h, (hr c cs rfl).2.2.2 h])]
      exact e
  | cons c cs =>
    rw [exponentPart.eq_def] at h
    rw [List.cons_append, exponentPart.eq_def]
    simp only at h ⊢
    by_cases hc : c = 'e' ∨ c = 'E'
    · rw [if_pos hc] at h ⊢
      cases cs with
      | nil => cases h
      | cons d ds =>
        simp only [List.cons_append] at h ⊢
        by_cases h1 : d = '+'
        · rw [if_pos h1] at h ⊢
          exact exponentDigits_append h q hr
        rw [if_neg h1] at h ⊢
        by_cases h2 : d = '-'
        · rw [if_pos h2] at h ⊢
          exact exponentDigits_append h q hr
        rw [if_neg h2] at h ⊢
        exact exponentDigits_append h q hr
    · rw [if_neg hc] at h ⊢
      exact (floatValue_append h q).2

theorem numberTail_append {neg : Bool} {s n : Nat} {l : List Char} {j : J} {r : List Char}
    (h : numberTail neg s n l = some (j, r)) (q : List Char) (hr : r ≠ [] ∨ Stops q) : numberTail neg s n (l ++ q) = some (j, r ++ q) := by
  cases l with
  | nil =>
    have hr : Stops q := by
      rw [numberTail] at h
      split at h
      · cases h; exact hr.resolve_left (fun e => e rfl)
      · obtain ⟨rfl, -⟩ := floatValue_append h q
        exact hr.resolve_left (fun e => e rfl)
    cases q with
    | nil => rw [List.append_nil, List.append_nil]; exact h
    | cons c cs =>
      obtain ⟨-, h1, h2, h3⟩ := hr c cs rfl
      show numberTail neg s n (c :: cs) = _
      rw [numberTail.eq_def]
      simp only [if_neg h1, h2, h3, or_self, if_false]
      rw [numberTail] at h
      split at h
      · rename_i hn
        rw [if_pos hn]
        cases h
        rfl
      · rename_i hn
        rw [if_neg hn]
        exact (floatValue_append h (c :: cs)).2
  | cons c cs =>
    rw [numberTail.eq_def] at h
    rw [List.cons_append, numberTail.eq_def]
    simp only at h ⊢
    by_cases h1 : c = '.'
    · rw [if_pos h1] at h ⊢
      cases cs with
      | nil => cases h
      | cons d ds =>
        simp only [List.cons_append] at h ⊢
        by_cases h2 : d.isDigit = true
        · rw [if_pos h2] at h ⊢
          have hne : (scanDec s n (d :: ds)).2.2 ≠ [] ∨ Stops q := by
            refine hr.imp_left fun hr e => ?_
            rw [e] at h
            exact hr (floatValue_append h q).1
          rw [← List.cons_append, scanDec_append q (hne.imp_right Stops.noDigit)]
          exact exponentPart_append h q hr
        · rw [if_neg h2] at h
          cases h
    rw [if_neg h1] at h ⊢
    by_cases h2 : c = 'e' ∨ c = 'E'
    · rw [if_pos h2] at h ⊢
      exact exponentPart_append h q hr
    rw [if_neg h2] at h ⊢
    by_cases h3 : n = 0
    · rw [if_pos h3] at h ⊢
      cases h
      rfl
    · rw [if_neg h3] at h ⊢
      exact (floatValue_append h q).2

theorem parseNumber_append {neg : Bool} {l : List Char} {j : J} {r : List Char}
    (h : parseNumber neg l = some (j, r)) (q : List Char) (hr : r ≠ [] ∨ Stops q) : parseNumber neg (l ++ q) = some (j, r ++ q) := by
  cases l with
  | nil => cases h
  | cons c cs =>
    rw [parseNumber.eq_def] at h
    rw [List.cons_append, parseNumber.eq_def]
    simp only at h ⊢
    by_cases h1 : c = '0'
    · simp only [if_pos h1] at h ⊢
      cases cs with
      | nil =>
        have hs : Stops q := by
          rw [numberTail, if_pos rfl] at h
          cases h
          exact hr.resolve_left (fun e => e rfl)
        have e := numberTail_append h q hr
        cases q with
        | nil => rw [List.append_nil, List.append_nil]; exact h
        | cons d ds =>
          simp only [List.nil_append]
          rw [if_neg (by rw [(hs d ds rfl).1]; decide)]
          exact e
      | cons d ds =>
        simp only [List.cons_append] at h ⊢
        by_cases h2 : d.isDigit = true
        · rw [if_pos h2] at h
          cases h
        · rw [if_neg h2] at h ⊢
          exact numberTail_append h q hr
    simp only [if_neg h1] at h ⊢
    by_cases h2 : c.isDigit = true
    · rw [if_pos h2] at h ⊢
      have hne : (scanInt (digitValue c) cs).2.2 ≠ [] ∨ Stops q := by
        refine hr.imp_left fun hr e => ?_
        rw [e, numberTail] at h
        split at h
        · cases h; exact hr rfl
        · exact hr (floatValue_append h q).1
      rw [scanInt_append q (hne.imp_right Stops.noDigit)]
      exact numberTail_append h q hr
    · rw [if_neg h2] at h
      cases h

theorem hex4_append {l : List Char} {n : Nat} {r : List Char} (h : hex4 l = some (n, r)) (q : List Char) :
    hex4 (l ++ q) = some (n, r ++ q) := by
  unfold hex4 at h
  split at h
  · rename_i a b c d r'
    rw [show a :: b :: c :: d :: r' ++ q = a :: b :: c :: d :: (r' ++ q) from rfl, hex4]
    split at h
    · rename_i h1 h2 h3 h4
      cases h
      rfl
    · cases h
  · cases h

theorem parseUnicode_append {l : List Char} {x : Char} {r : List Char} (h : parseUnicode l = some (x, r)) (q : List Char) :
    parseUnicode (l ++ q) = some (x, r ++ q) := by
  unfold parseUnicode at h ⊢
  cases h4 : hex4 l with
  | none => rw [h4] at h; cases h
  | some p =>
    obtain ⟨n, r1⟩ := p
    rw [h4] at h
    rw [hex4_append h4 q]
    simp only at h ⊢
    split at h
    · cases h
    rename_i h1
    rw [if_neg h1]
    split at h
    · rename_i h2
      rw [if_pos h2]
      split at h
      · rename_i r2
        cases h5 : hex4 r2 with
        | none => rw [h5] at h; cases h
        | some p =>
          obtain ⟨n', r3⟩ := p
          rw [h5] at h
          simp only [List.cons_append, hex4_append h5 q] at h ⊢
          split at h
          · rename_i h6
            rw [if_pos h6]
            obtain ⟨e1, e2⟩ := Prod.mk.inj (Option.some.inj h)
            rw [e1, e2]
          · cases h
      · cases h
    · rename_i h2
      rw [if_neg h2]
      cases h
      rfl

theorem unescape_append {l : List Char} {x : Char} {r : List Char} (h : unescape l = some (x, r)) (q : List Char) :
    unescape (l ++ q) = some (x, r ++ q) := by
  cases l with
  | nil => cases h
  | cons c cs =>
    rw [unescape] at h
    rw [List.cons_append, unescape]
    split at h
    · rename_i hc; rw [if_pos hc]; cases h; rfl
    rename_i hc; rw [if_neg hc]; clear hc
    split at h
    · rename_i hc; rw [if_pos hc]; cases h; rfl
    rename_i hc; rw [if_neg hc]; clear hc
    split at h
    · rename_i hc; rw [if_pos hc]; cases h; rfl
    rename_i hc; rw [if_neg hc]; clear hc
    split at h
    · rename_i hc; rw [if_pos hc]; cases h; rfl
    rename_i hc; rw [if_neg hc]; clear hc
    split at h
    · rename_i hc; rw [if_pos hc]; cases h; rfl
    rename_i hc; rw [if_neg hc]; clear hc
    split at h
    · rename_i hc; rw [if_pos hc]; cases h; rfl
    rename_i hc; rw [if_neg hc]; clear hc
    split at h
    · rename_i hc; rw [if_pos hc]; cases h; rfl
    rename_i hc; rw [if_neg hc]; clear hc
    split at h
    · rename_i hc; rw [if_pos hc]; cases h; rfl
    rename_i hc; rw [if_neg hc]; clear hc
    split at h
    · rename_i hc; rw [if_pos hc]; exact parseUnicode_append h q
    · cases h

theorem parseStr_append (q : List Char) : ∀ {fuel fuel' : Nat} {l s r : List Char}, parseStr fuel l = some (s, r) → fuel ≤ fuel' →
    parseStr fuel' (l ++ q) = some (s, r ++ q)
  | 0, _, _, _, _, h, _ => by cases h
  | fuel + 1, 0, _, _, _, _, hf => absurd hf (by omega)
  | fuel + 1, fuel' + 1, [], _, _, h, _ => by cases h
  | fuel + 1, fuel' + 1, c :: cs, s, r, h, hf => by
    rw [parseStr] at h
    rw [List.cons_append, parseStr]
    by_cases h1 : c = '"'
    · rw [if_pos h1] at h ⊢
      cases h
      rfl
    rw [if_neg h1] at h ⊢
    by_cases h2 : c = '\\'
    · rw [if_pos h2] at h ⊢
      cases h3 : unescape cs with
      | none => rw [h3] at h; cases h
      | some p =>
        obtain ⟨x, r1⟩ := p
        rw [h3] at h
        rw [unescape_append h3 q]
        simp only [Option.map_eq_some_iff] at h ⊢
        obtain ⟨⟨s1, r2⟩, h4, h5⟩ := h
        cases h5
        exact ⟨_, parseStr_append q h4 (by omega), rfl⟩
    rw [if_neg h2] at h ⊢
    by_cases h3 : c.toNat < 32
    · rw [if_pos h3] at h
      cases h
    rw [if_neg h3] at h ⊢
    simp only [Option.map_eq_some_iff] at h ⊢
    obtain ⟨⟨s1, r2⟩, h4, h5⟩ := h
    cases h5
    exact ⟨_, parseStr_append q h4 (by omega), rfl⟩

theorem parseIdent_append {w : List Char} {v : J} {l : List Char} {j : J} {r : List Char} (h : parseIdent w v l = some (j, r))
    (q : List Char) : parseIdent w v (l ++ q) = some (j, r ++ q) := by
  unfold parseIdent at h ⊢
  split at h
  · rename_i hw
    obtain ⟨t, rfl⟩ := List.isPrefixOf_iff_prefix.mp hw
    cases h
    rw [if_pos (List.isPrefixOf_iff_prefix.mpr ⟨t ++ q, by simp⟩)]
    simp
  · cases h

/-- The text of a number can go on. -/
def isNumber : J → Bool
  | .num _ => true
  | .flt _ => true
  | _ => false

/-- What is read is read from longer texts. -/
def Extends (value : List Char → Option (J × List Char)) : Prop :=
  ∀ l j r, value l = some (j, r) → ∀ q, r ≠ [] ∨ isNumber j = false ∨ Stops q → value (l ++ q) = some (j, r ++ q)

theorem skip_ne {r : List Char} {c : Char} {t : List Char} (h : skip r = c :: t) : r ≠ [] := by
  rintro rfl
  cases h

theorem parseElements_append {value : List Char → Option (J × List Char)} (hv : Extends value) (q : List Char) :
    ∀ {fuel fuel' : Nat} {l : List Char} {js : List J} {r : List Char}, parseElements value fuel l = some (js, r) → fuel ≤ fuel' →
      parseElements value fuel' (l ++ q) = some (js, r ++ q)
  | 0, _, _, _, _, h, _ => by cases h
  | fuel + 1, 0, _, _, _, _, hf => absurd hf (by omega)
  | fuel + 1, fuel' + 1, l, js, r, h, hf => by
    rw [parseElements] at h ⊢
    cases h1 : value l with
    | none => rw [h1] at h; cases h
    | some p =>
      obtain ⟨j, r1⟩ := p
      rw [h1] at h
      simp only at h
      cases h2 : skip r1 with
      | nil => rw [h2] at h; cases h
      | cons c r2 =>
        rw [h2] at h
        rw [hv l j r1 h1 q (.inl (skip_ne h2))]
        simp only [skip_append h2 q] at h ⊢
        by_cases h3 : c = ','
        · rw [if_pos h3] at h ⊢
          simp only [Option.map_eq_some_iff] at h ⊢
          obtain ⟨⟨s1, r3⟩, h4, h5⟩ := h
          cases h5
          exact ⟨_, parseElements_append hv q h4 (by omega), rfl⟩
        rw [if_neg h3] at h ⊢
        by_cases h4 : c = ']'
        · rw [if_pos h4] at h ⊢
          cases h
          rfl
        · rw [if_neg h4] at h
          cases h

theorem parseEntries_append {value : List Char → Option (J × List Char)} (hv : Extends value) (q : List Char) :
    ∀ {fuel fuel' : Nat} {l : List Char} {js : List (String × J)} {r : List Char}, parseEntries value fuel l = some (js, r) → fuel ≤ fuel' →
      parseEntries value fuel' (l ++ q) = some (js, r ++ q)
  | 0, _, _, _, _, h, _ => by cases h
  | fuel + 1, 0, _, _, _, _, hf => absurd hf (by omega)
  | fuel + 1, fuel' + 1, l, js, r, h, hf => by
    rw [parseEntries] at h ⊢
    cases h0 : skip l with
    | nil => rw [h0] at h; cases h
    | cons c0 l0 =>
    rw [h0] at h
    simp only [skip_append h0 q] at h ⊢
    by_cases hq : c0 = '"'
    case neg => rw [if_neg hq] at h; cases h
    rw [if_pos hq] at h ⊢
    cases hs : parseStr (l0.length + 1) l0 with
    | none => rw [hs] at h; cases h
    | some p =>
    obtain ⟨n, l1⟩ := p
    rw [hs] at h
    rw [parseStr_append q hs (fuel' := (l0 ++ q).length + 1) (by rw [List.length_append]; omega)]
    simp only at h ⊢
    cases h1 : skip l1 with
    | nil => rw [h1] at h; cases h
    | cons c1 l2 =>
    rw [h1] at h
    simp only [skip_append h1 q] at h ⊢
    by_cases hk : c1 = ':'
    case neg => rw [if_neg hk] at h; cases h
    rw [if_pos hk] at h ⊢
    cases h1 : value l2 with
    | none => rw [h1] at h; cases h
    | some p =>
      obtain ⟨j, r1⟩ := p
      rw [h1] at h
      simp only at h
      cases h2 : skip r1 with
      | nil => rw [h2] at h; cases h
      | cons c r2 =>
        rw [h2] at h
        rw [hv l2 j r1 h1 q (.inl (skip_ne h2))]
        simp only [skip_append h2 q] at h ⊢
        by_cases h3 : c = ','
        · rw [if_pos h3] at h ⊢
          simp only [Option.map_eq_some_iff] at h ⊢
          obtain ⟨⟨s1, r3⟩, h4, h5⟩ := h
          cases h5
          exact ⟨_, parseEntries_append hv q h4 (by omega), rfl⟩
        rw [if_neg h3] at h ⊢
        by_cases h4 : c = '}'
        · rw [if_pos h4] at h ⊢
          cases h
          rfl
        · rw [if_neg h4] at h
          cases h

theorem floatValue_number {neg : Bool} {s : Nat} {e : Int} {l : List Char} {j : J} {r : List Char}
    (h : floatValue neg s e l = some (j, r)) : isNumber j = true := by
  unfold floatValue at h
  cases hf : readFloat neg s e with
  | none => rw [hf] at h; cases h
  | some f => rw [hf] at h; cases h; rfl

theorem intValue_number (neg : Bool) (s : Nat) : isNumber (intValue neg s) = true := by
  unfold intValue
  repeat' split
  all_goals rfl

theorem exponentDigits_number {neg : Bool} {s : Nat} {e : Int} {m : Bool} {l : List Char} {j : J} {r : List Char}
    (h : exponentDigits neg s e m l = some (j, r)) : isNumber j = true := by
  unfold exponentDigits at h
  split at h
  · cases h
  · split at h
    · exact floatValue_number h
    · cases h

theorem exponentPart_number {neg : Bool} {s : Nat} {e : Int} {l : List Char} {j : J} {r : List Char}
    (h : exponentPart neg s e l = some (j, r)) : isNumber j = true := by
  unfold exponentPart at h
  repeat' split at h
  all_goals first | exact floatValue_number h | exact exponentDigits_number h | cases h

theorem numberTail_number {neg : Bool} {s n : Nat} {l : List Char} {j : J} {r : List Char}
    (h : numberTail neg s n l = some (j, r)) : isNumber j = true := by
  unfold numberTail at h
  repeat' split at h
  all_goals first | exact floatValue_number h | exact exponentPart_number h | (cases h; done) | (cases h; exact intValue_number _ _)

theorem parseNumber_number {neg : Bool} {l : List Char} {j : J} {r : List Char}
    (h : parseNumber neg l = some (j, r)) : isNumber j = true := by
  unfold parseNumber at h
  repeat' split at h
  all_goals first | exact numberTail_number h | cases h

theorem parseValue_extends : ∀ d, Extends (parseValue d)
  | 0 => by rintro l j r ⟨⟩
  | d + 1 => by
    intro l j r h q hj
    have ih := parseValue_extends d
    rw [parseValue] at h ⊢
    cases h0 : skip l with
    | nil => rw [h0] at h; cases h
    | cons c t =>
    rw [h0] at h
    simp only [skip_append h0 q] at h ⊢
    have hn : isNumber j = true → r ≠ [] ∨ Stops q := fun e => hj.imp_right fun h => h.resolve_left (by rw [e]; decide)
    by_cases hc : c = 'n'
    · rw [if_pos hc] at h ⊢; exact parseIdent_append h q
    rw [if_neg hc] at h ⊢; clear hc
    by_cases hc : c = 't'
    · rw [if_pos hc] at h ⊢; exact parseIdent_append h q
    rw [if_neg hc] at h ⊢; clear hc
    by_cases hc : c = 'f'
    · rw [if_pos hc] at h ⊢; exact parseIdent_append h q
    rw [if_neg hc] at h ⊢; clear hc
    by_cases hc : c = '-'
    · rw [if_pos hc] at h ⊢; exact parseNumber_append h q (hn (parseNumber_number h))
    rw [if_neg hc] at h ⊢; clear hc
    by_cases hc : c.isDigit = true
    · rw [if_pos hc] at h ⊢; exact parseNumber_append h q (hn (parseNumber_number h))
    rw [if_neg hc] at h ⊢; clear hc
    by_cases hc : c = '"'
    · rw [if_pos hc] at h ⊢
      simp only [Option.map_eq_some_iff] at h ⊢
      obtain ⟨⟨s1, r3⟩, h4, h5⟩ := h
      cases h5
      exact ⟨_, parseStr_append q h4 (by rw [List.length_append]; omega), rfl⟩
    rw [if_neg hc] at h ⊢; clear hc
    by_cases hc : c = '['
    · rw [if_pos hc] at h ⊢
      by_cases hd : d = 0
      · rw [if_pos hd] at h; cases h
      rw [if_neg hd] at h ⊢
      cases h1 : skip t with
      | nil => rw [h1] at h; cases h
      | cons e es =>
      rw [h1] at h
      simp only [skip_append h1 q] at h ⊢
      by_cases he : e = ']'
      · rw [if_pos he] at h ⊢; cases h; rfl
      rw [if_neg he] at h ⊢
      simp only [Option.map_eq_some_iff] at h ⊢
      obtain ⟨⟨s1, r3⟩, h4, h5⟩ := h
      cases h5
      rw [← List.cons_append]
      exact ⟨_, parseElements_append ih q h4 (by rw [List.length_append]; omega), rfl⟩
    rw [if_neg hc] at h ⊢; clear hc
    by_cases hc : c = '{'
    · rw [if_pos hc] at h ⊢
      by_cases hd : d = 0
      · rw [if_pos hd] at h; cases h
      rw [if_neg hd] at h ⊢
      cases h1 : skip t with
      | nil => rw [h1] at h; cases h
      | cons e es =>
      rw [h1] at h
      simp only [skip_append h1 q] at h ⊢
      by_cases he : e = '}'
      · rw [if_pos he] at h ⊢; cases h; rfl
      rw [if_neg he] at h ⊢
      simp only [Option.map_eq_some_iff] at h ⊢
      obtain ⟨⟨s1, r3⟩, h4, h5⟩ := h
      cases h5
      rw [← List.cons_append]
      exact ⟨_, parseEntries_append ih q h4 (by rw [List.length_append]; omega), rfl⟩
    rw [if_neg hc] at h
    cases h

end Verif.Json
