import Verif.Json.TextPrefix
import Verif.Json.Grammar
/-!
# The parser of numbers and the grammar
-/

namespace Verif.Json

theorem dropDigits_split : ∀ l : List Char, ∃ ds, (∀ c ∈ ds, c.isDigit = true) ∧ l = ds ++ (dropDigits l).2 ∧
    dropDigits ds = ((dropDigits l).1, []) ∧ NoDigit (dropDigits l).2
  | [] => ⟨[], by simp, rfl, rfl, by rintro _ _ ⟨⟩⟩
  | c :: cs => by
    by_cases hc : c.isDigit = true
    · obtain ⟨ds, h1, h2, h3, h4⟩ := dropDigits_split cs
      have e : dropDigits (c :: cs) = ((dropDigits cs).1 + 1, (dropDigits cs).2) := by rw [dropDigits, if_pos hc]
      refine ⟨c :: ds, ?_, ?_, ?_, ?_⟩
      · intro x hx
        rcases List.mem_cons.mp hx with rfl | hx
        exacts [hc, h1 x hx]
      · rw [e, List.cons_append, ← h2]
      · rw [e, dropDigits, if_pos hc, h3]
      · rw [e]; exact h4
    · refine ⟨[], by simp, by rw [dropDigits, if_neg hc]; rfl, by rw [dropDigits, dropDigits, if_neg hc], ?_⟩
      rw [dropDigits, if_neg hc]
      rintro x r ⟨⟩
      exact Bool.eq_false_iff.mpr hc

theorem scanInt_split : ∀ (s : Nat) (l : List Char), ∃ ds, (∀ c ∈ ds, c.isDigit = true) ∧ l = ds ++ (scanInt s l).2.2 ∧
    scanInt s ds = ((scanInt s l).1, (scanInt s l).2.1, []) ∧ NoDigit (scanInt s l).2.2
  | s, [] => ⟨[], by simp, rfl, rfl, by rintro _ _ ⟨⟩⟩
  | s, c :: cs => by
    by_cases hc : c.isDigit = true
    · by_cases h : s * 10 + digitValue c < 2 ^ 64
      · obtain ⟨ds, h1, h2, h3, h4⟩ := scanInt_split (s * 10 + digitValue c) cs
        have e : ∀ x, scanInt s (c :: x) = scanInt (s * 10 + digitValue c) x := fun x => by rw [scanInt, if_pos hc, if_pos h]
        refine ⟨c :: ds, ?_, ?_, ?_, ?_⟩
        · intro x hx
          rcases List.mem_cons.mp hx with rfl | hx
          exacts [hc, h1 x hx]
        · rw [e, List.cons_append, ← h2]
        · rw [e, e, h3]
        · rw [e]; exact h4
      · obtain ⟨ds, h1, h2, h3, h4⟩ := dropDigits_split (c :: cs)
        have e : scanInt s (c :: cs) = (s, dropDigits (c :: cs)) := by rw [scanInt, if_pos hc, if_neg h]
        rw [e]
        refine ⟨ds, h1, h2, ?_, h4⟩
        cases ds with
        | nil =>
          rw [List.nil_append] at h2
          have := h4 c cs h2.symm
          rw [hc] at this
          cases this
        | cons d ds =>
          rw [List.cons_append, List.cons.injEq] at h2
          obtain ⟨rfl, -⟩ := h2
          rw [scanInt, if_pos hc, if_neg h, h3]
    · refine ⟨[], by simp, by rw [scanInt, if_neg hc]; rfl, by rw [scanInt, scanInt, if_neg hc], ?_⟩
      rw [scanInt, if_neg hc]
      rintro x r ⟨⟩
      exact Bool.eq_false_iff.mpr hc

theorem scanDec_split : ∀ (s : Nat) (e : Int) (l : List Char), ∃ ds, (∀ c ∈ ds, c.isDigit = true) ∧ l = ds ++ (scanDec s e l).2.2 ∧
    scanDec s e ds = ((scanDec s e l).1, (scanDec s e l).2.1, []) ∧ NoDigit (scanDec s e l).2.2
  | s, _, [] => ⟨[], by simp, rfl, rfl, by rintro _ _ ⟨⟩⟩
  | s, k, c :: cs => by
    by_cases hc : c.isDigit = true
    · by_cases h : s * 10 + digitValue c < 2 ^ 64
      · obtain ⟨ds, h1, h2, h3, h4⟩ := scanDec_split (s * 10 + digitValue c) (k - 1) cs
        have e : ∀ x, scanDec s k (c :: x) = scanDec (s * 10 + digitValue c) (k - 1) x := fun x => by rw [scanDec, if_pos hc, if_pos h]
        refine ⟨c :: ds, ?_, ?_, ?_, ?_⟩
        · intro x hx
          rcases List.mem_cons.mp hx with rfl | hx
          exacts [hc, h1 x hx]
        · rw [e, List.cons_append, ← h2]
        · rw [e, e, h3]
        · rw [e]; exact h4
      · obtain ⟨ds, h1, h2, h3, h4⟩ := dropDigits_split (c :: cs)
        have e : scanDec s k (c :: cs) = (s, k, (dropDigits (c :: cs)).2) := by rw [scanDec, if_pos hc, if_neg h]
        rw [e]
        refine ⟨ds, h1, h2, ?_, h4⟩
        cases ds with
        | nil =>
          rw [List.nil_append] at h2
          have := h4 c cs h2.symm
          rw [hc] at this
          cases this
        | cons d ds =>
          rw [List.cons_append, List.cons.injEq] at h2
          obtain ⟨rfl, -⟩ := h2
          rw [scanDec, if_pos hc, if_neg h, h3]
    · refine ⟨[], by simp, by rw [scanDec, if_neg hc]; rfl, by rw [scanDec, scanDec, if_neg hc], ?_⟩
      rw [scanDec, if_neg hc]
      rintro x r ⟨⟩
      exact Bool.eq_false_iff.mpr hc

theorem scanExp_split : ∀ (s : Nat) (l : List Char), ∃ ds, (∀ c ∈ ds, c.isDigit = true) ∧ l = ds ++ (scanExp s l).2 ∧
    scanExp s ds = ((scanExp s l).1, []) ∧ NoDigit (scanExp s l).2
  | s, [] => ⟨[], by simp, rfl, rfl, by rintro _ _ ⟨⟩⟩
  | s, c :: cs => by
    by_cases hc : c.isDigit = true
    · obtain ⟨ds, h1, h2, h3, h4⟩ := scanExp_split (s * 10 + digitValue c) cs
      have e : ∀ x, scanExp s (c :: x) = scanExp (s * 10 + digitValue c) x := fun x => by rw [scanExp, if_pos hc]
      refine ⟨c :: ds, ?_, ?_, ?_, ?_⟩
      · intro x hx
        rcases List.mem_cons.mp hx with rfl | hx
        exacts [hc, h1 x hx]
      · rw [e, List.cons_append, ← h2]
      · rw [e, e, h3]
      · rw [e]; exact h4
    · refine ⟨[], by simp, by rw [scanExp, if_neg hc]; rfl, by rw [scanExp, scanExp, if_neg hc], ?_⟩
      rw [scanExp, if_neg hc]
      rintro x r ⟨⟩
      exact Bool.eq_false_iff.mpr hc

theorem floatValue_rest {neg : Bool} {s : Nat} {e : Int} {l : List Char} {j : J} {r : List Char} (h : floatValue neg s e l = some (j, r)) :
    r = l ∧ ∀ q, floatValue neg s e q = some (j, q) := by
  unfold floatValue at h ⊢
  cases hf : readFloat neg s e with
  | none => rw [hf] at h; cases h
  | some f =>
    rw [hf] at h
    cases h
    exact ⟨rfl, fun q => rfl⟩

theorem exponentDigits_split {neg : Bool} {s : Nat} {e : Int} {m : Bool} {l : List Char} {j : J} {r : List Char}
    (h : exponentDigits neg s e m l = some (j, r)) : ∃ ds, Digits ds ∧ l = ds ++ r ∧ exponentDigits neg s e m ds = some (j, []) := by
  cases l with
  | nil => cases h
  | cons c cs =>
    rw [exponentDigits] at h
    by_cases hc : c.isDigit = true
    · simp only [if_pos hc] at h
      obtain ⟨ds, h1, h2, h3, -⟩ := scanExp_split (digitValue c) cs
      obtain ⟨rfl, e2⟩ := floatValue_rest h
      refine ⟨c :: ds, ⟨by simp, fun x hx => ?_⟩, by rw [List.cons_append, ← h2], ?_⟩
      · rcases List.mem_cons.mp hx with rfl | hx
        exacts [hc, h1 x hx]
      · rw [exponentDigits]
        simp only [if_pos hc, h3, e2]
    · rw [if_neg hc] at h
      cases h

theorem digits_head {ds : List Char} (h : Digits ds) : ∃ c r, ds = c :: r ∧ c.isDigit = true := by
  cases ds with
  | nil => exact absurd rfl h.1
  | cons c r => exact ⟨c, r, rfl, h.2 c (by simp)⟩

theorem exponentPart_split {neg : Bool} {s : Nat} {e : Int} {l : List Char} {j : J} {r : List Char}
    (h : exponentPart neg s e l = some (j, r)) : ∃ x, ExpPart x ∧ l = x ++ r ∧ exponentPart neg s e x = some (j, []) := by
  cases l with
  | nil =>
    obtain ⟨rfl, e2⟩ := floatValue_rest h
    exact ⟨[], .inl rfl, rfl, e2 []⟩
  | cons c cs =>
    rw [exponentPart.eq_def] at h
    simp only at h
    by_cases hc : c = 'e' ∨ c = 'E'
    · rw [if_pos hc] at h
      cases cs with
      | nil => cases h
      | cons d ds =>
        simp only at h
        by_cases h1 : d = '+'
        · rw [if_pos h1] at h
          obtain ⟨x, hx, rfl, h2⟩ := exponentDigits_split h
          refine ⟨c :: d :: x, .inr ⟨c, [d], x, hc, by rw [h1]; simp, hx, rfl⟩, rfl, ?_⟩
          rw [exponentPart.eq_def]
          simp only [if_pos hc, if_pos h1, h2]
        rw [if_neg h1] at h
        by_cases h3 : d = '-'
        · rw [if_pos h3] at h
          obtain ⟨x, hx, rfl, h2⟩ := exponentDigits_split h
          refine ⟨c :: d :: x, .inr ⟨c, [d], x, hc, by rw [h3]; simp, hx, rfl⟩, rfl, ?_⟩
          rw [exponentPart.eq_def]
          simp only [if_pos hc, if_neg h1, if_pos h3, h2]
        rw [if_neg h3] at h
        obtain ⟨x, hx, hl, h2⟩ := exponentDigits_split h
        obtain ⟨y, ys, rfl, -⟩ := digits_head hx
        rw [List.cons_append, List.cons.injEq] at hl
        obtain ⟨rfl, rfl⟩ := hl
        refine ⟨c :: d :: ys, .inr ⟨c, [], d :: ys, hc, by simp, hx, rfl⟩, rfl, ?_⟩
        rw [exponentPart.eq_def]
        simp only [if_pos hc, if_neg h1, if_neg h3, h2]
    · rw [if_neg hc] at h
      obtain ⟨rfl, e2⟩ := floatValue_rest h
      exact ⟨[], .inl rfl, rfl, e2 []⟩

theorem exp_noDigit {e : List Char} (h : ExpPart e) : NoDigit e := by
  rcases h with rfl | ⟨x, sign, ds, hx, -, -, rfl⟩
  · rintro _ _ ⟨⟩
  · rintro c r ⟨⟩
    rcases hx with rfl | rfl <;> decide

theorem tail_noDigit {f e : List Char} (hf : FracPart f) (he : ExpPart e) : NoDigit (f ++ e) := by
  rcases hf with rfl | ⟨ds, -, rfl⟩
  · exact exp_noDigit he
  · rintro c r ⟨⟩
    decide

theorem numberTail_split {neg : Bool} {s n : Nat} {l : List Char} {j : J} {r : List Char}
    (h : numberTail neg s n l = some (j, r)) :
    ∃ f e, FracPart f ∧ ExpPart e ∧ l = f ++ (e ++ r) ∧ numberTail neg s n (f ++ e) = some (j, []) := by
  cases l with
  | nil =>
    have h' := h
    rw [numberTail] at h
    split at h
    · cases h
      exact ⟨[], [], .inl rfl, .inl rfl, rfl, h'⟩
    · obtain ⟨rfl, -⟩ := floatValue_rest h
      exact ⟨[], [], .inl rfl, .inl rfl, rfl, h'⟩
  | cons c cs =>
    rw [numberTail.eq_def] at h
    simp only at h
    by_cases h1 : c = '.'
    · rw [if_pos h1] at h
      cases cs with
      | nil => cases h
      | cons d ds =>
        simp only at h
        by_cases h2 : d.isDigit = true
        · rw [if_pos h2] at h
          obtain ⟨dd, g1, g2, g3, g4⟩ := scanDec_split s n (d :: ds)
          obtain ⟨x, hx, hl, h5⟩ := exponentPart_split h
          cases dd with
          | nil =>
            rw [List.nil_append] at g2
            have := g4 d ds g2.symm
            rw [h2] at this
            cases this
          | cons d' dd =>
            have g2' := g2
            rw [List.cons_append, List.cons.injEq] at g2
            obtain ⟨rfl, -⟩ := g2
            refine ⟨'.' :: d :: dd, x, .inr ⟨d :: dd, ⟨by simp, g1⟩, rfl⟩, hx, ?_, ?_⟩
            · rw [h1, g2', hl]
              rfl
            · show numberTail neg s n ('.' :: d :: (dd ++ x)) = _
              rw [numberTail.eq_def]
              simp only [if_true, if_pos h2]
              have g5 := scanDec_append x (s := s) (e := n) (l := d :: dd) (.inr (exp_noDigit hx))
              rw [g3] at g5
              rw [List.cons_append] at g5
              rw [g5]
              exact h5
        · rw [if_neg h2] at h
          cases h
    rw [if_neg h1] at h
    by_cases h2 : c = 'e' ∨ c = 'E'
    · rw [if_pos h2] at h
      obtain ⟨x, hx, hl, h5⟩ := exponentPart_split h
      refine ⟨[], x, .inl rfl, hx, hl, ?_⟩
      cases x with
      | nil =>
        exfalso
        rw [List.nil_append] at hl
        subst hl
        rw [exponentPart.eq_def] at h
        simp only [if_pos h2] at h
        cases cs with
        | nil => cases h
        | cons d ds =>
          simp only at h
          have hlen : ∀ {m l}, exponentDigits neg s n m l = some (j, c :: d :: ds) → (c :: d :: ds).length ≤ l.length := by
            intro m l h
            obtain ⟨w, -, rfl, -⟩ := exponentDigits_split h
            rw [List.length_append]
            omega
          split at h
          · have := hlen h; simp at this
            omega
          split at h
          · have := hlen h; simp at this
            omega
          · have := hlen h; simp at this
      | cons y ys =>
        rw [List.cons_append, List.cons.injEq] at hl
        obtain ⟨rfl, rfl⟩ := hl
        show numberTail neg s n (c :: ys) = _
        rw [numberTail.eq_def]
        simp only [if_neg h1, if_pos h2]
        exact h5
    rw [if_neg h2] at h
    by_cases h3 : n = 0
    · rw [if_pos h3] at h
      cases h
      exact ⟨[], [], .inl rfl, .inl rfl, rfl, by rw [List.append_nil, numberTail, if_pos h3]⟩
    · rw [if_neg h3] at h
      obtain ⟨rfl, e2⟩ := floatValue_rest h
      exact ⟨[], [], .inl rfl, .inl rfl, rfl, by rw [List.append_nil, numberTail, if_neg h3, e2]⟩

theorem parseNumber_split {neg : Bool} {l : List Char} {j : J} {r : List Char} (h : parseNumber neg l = some (j, r)) :
    ∃ u, Unsigned u ∧ l = u ++ r ∧ parseNumber neg u = some (j, []) := by
  cases l with
  | nil => cases h
  | cons c cs =>
    rw [parseNumber.eq_def] at h
    simp only at h
    by_cases h1 : c = '0'
    · simp only [if_pos h1] at h
      have h2 : numberTail neg 0 0 cs = some (j, r) := by
        cases cs with
        | nil => exact h
        | cons d ds =>
          simp only at h
          split at h
          · cases h
          · exact h
      obtain ⟨f, e, hf, he, rfl, h3⟩ := numberTail_split h2
      refine ⟨'0' :: (f ++ e), ⟨['0'], f, e, .inl rfl, hf, he, rfl⟩, by rw [h1]; simp, ?_⟩
      rw [parseNumber.eq_def]
      simp only [if_true]
      have hn := tail_noDigit hf he
      cases hfe : f ++ e with
      | nil => rw [hfe] at h3; exact h3
      | cons d ds =>
        simp only
        rw [if_neg (by rw [hn d ds hfe]; decide), ← hfe]
        exact h3
    simp only [if_neg h1] at h
    by_cases h2 : c.isDigit = true
    · rw [if_pos h2] at h
      obtain ⟨ds, g1, g2, g3, -⟩ := scanInt_split (digitValue c) cs
      obtain ⟨f, e, hf, he, hl, h3⟩ := numberTail_split h
      refine ⟨c :: (ds ++ (f ++ e)), ⟨c :: ds, f, e, .inr ⟨⟨by simp, fun x hx => ?_⟩, by simpa using h1⟩, hf, he, rfl⟩, ?_, ?_⟩
      · rcases List.mem_cons.mp hx with rfl | hx
        exacts [h2, g1 x hx]
      · rw [g2, hl]
        simp
      · rw [parseNumber.eq_def]
        simp only [if_neg h1, if_pos h2]
        have g5 := scanInt_append (f ++ e) (s := digitValue c) (l := ds) (.inr (tail_noDigit hf he))
        rw [g3] at g5
        rw [g5]
        exact h3
    · rw [if_neg h2] at h
      cases h

/-! ## Integers and floats -/

theorem scanInt_all {s : Nat} {ds : List Char} (h : ∀ c ∈ ds, c.isDigit = true) : (scanInt s ds).2.2 = [] := by
  obtain ⟨dd, -, h2, -, h4⟩ := scanInt_split s ds
  cases hr : (scanInt s ds).2.2 with
  | nil => rfl
  | cons c r =>
    have h5 := h4 c r hr
    rw [h c (by rw [h2, hr]; simp)] at h5
    cases h5

theorem scanInt_large : ∀ {s : Nat} {ds : List Char}, (∀ c ∈ ds, c.isDigit = true) → s < 2 ^ 64 → 2 ^ 64 ≤ Nat.ofDigitChars 10 ds s →
    0 < (scanInt s ds).2.1
  | s, [], _, h1, h2 => by
    rw [Nat.ofDigitChars_nil] at h2
    omega
  | s, c :: cs, h, h1, h2 => by
    have hc := h c (by simp)
    rw [scanInt, if_pos hc]
    by_cases h3 : s * 10 + digitValue c < 2 ^ 64
    · rw [if_pos h3]
      refine scanInt_large (fun x hx => h x (by simp [hx])) h3 ?_
      rw [Nat.ofDigitChars_cons] at h2
      rwa [digit_step]
    · rw [if_neg h3, dropDigits, if_pos hc]
      exact Nat.succ_pos _

theorem digitValue_lt {c : Char} (h : c.isDigit = true) : digitValue c < 10 := by
  rw [Char.isDigit_iff_toNat, show '0'.toNat = 48 from rfl, show '9'.toNat = 57 from rfl] at h
  unfold digitValue
  omega

/-- The digits before the point: if they do not fit into 64 bits, digits are dropped. -/
theorem intPart_parse {i : List Char} (hi : IntPart i) : ∃ s n, (∀ neg q, NoDigit q → parseNumber neg (i ++ q) = numberTail neg s n q) ∧
    (Nat.ofDigitChars 10 i 0 < 2 ^ 64 → s = Nat.ofDigitChars 10 i 0 ∧ n = 0) ∧ (2 ^ 64 ≤ Nat.ofDigitChars 10 i 0 → 0 < n) := by
  rcases hi with rfl | ⟨hd, h0⟩
  · refine ⟨0, 0, fun neg q hq => ?_, fun _ => ⟨by decide, rfl⟩, fun h => absurd h (by decide)⟩
    rw [List.singleton_append, parseNumber.eq_def]
    simp only [if_true]
    cases q with
    | nil => rfl
    | cons c r =>
      simp only
      rw [if_neg (by rw [hq c r rfl]; decide)]
  · obtain ⟨c, cs, rfl, hc⟩ := digits_head hd
    have h1 : c ≠ '0' := by simpa using h0
    have hcs : ∀ x ∈ cs, x.isDigit = true := fun x hx => hd.2 x (by simp [hx])
    have hall := scanInt_all (s := digitValue c) hcs
    refine ⟨(scanInt (digitValue c) cs).1, (scanInt (digitValue c) cs).2.1, fun neg q hq => ?_, fun h => ?_, fun h => ?_⟩
    · rw [List.cons_append, parseNumber.eq_def]
      simp only [if_neg h1, if_pos hc, scanInt_append q (s := digitValue c) (l := cs) (.inr hq), hall, List.nil_append]
    · rw [cons_value] at h ⊢
      have := scanInt_digits cs (digitValue c) [] hcs (by rintro _ _ ⟨⟩) h
      rw [List.append_nil] at this
      rw [this]
      exact ⟨rfl, rfl⟩
    · rw [cons_value] at h
      exact scanInt_large hcs (Nat.lt_trans (digitValue_lt hc) (by decide)) h

theorem floatValue_float {neg : Bool} {s : Nat} {e : Int} {l : List Char} {j : J} {r : List Char}
    (h : floatValue neg s e l = some (j, r)) : ∃ x, j = .flt x := by
  unfold floatValue at h
  cases hf : readFloat neg s e with
  | none => rw [hf] at h; cases h
  | some f => rw [hf] at h; cases h; exact ⟨_, rfl⟩

theorem exponentPart_float {neg : Bool} {s : Nat} {e : Int} {l : List Char} {j : J} {r : List Char}
    (h : exponentPart neg s e l = some (j, r)) : ∃ x, j = .flt x := by
  have digits : ∀ {m l}, exponentDigits neg s e m l = some (j, r) → ∃ x, j = .flt x := by
    intro m l h
    unfold exponentDigits at h
    split at h
    · cases h
    · split at h
      · exact floatValue_float h
      · cases h
  unfold exponentPart at h
  repeat' split at h
  all_goals first | exact floatValue_float h | exact digits h | cases h

theorem numberTail_float {neg : Bool} {s n : Nat} {f e : List Char} {j : J} {r : List Char} (hf : FracPart f) (he : ExpPart e)
    (hn : f ≠ [] ∨ e ≠ []) (h : numberTail neg s n (f ++ e) = some (j, r)) : ∃ x, j = .flt x := by
  rcases hf with rfl | ⟨ds, hd, rfl⟩
  · rcases he with rfl | ⟨x, sign, ds, hx, -, -, rfl⟩
    · simp at hn
    · rw [List.nil_append, numberTail.eq_def] at h
      simp only [if_pos hx, if_neg (show ¬ x = '.' by rcases hx with rfl | rfl <;> decide)] at h
      exact exponentPart_float h
  · rw [List.cons_append, numberTail.eq_def] at h
    simp only [if_true] at h
    repeat' split at h
    all_goals first | exact exponentPart_float h | cases h

end Verif.Json
