import Verif.Json.TextLaws
/-!
# Values nested too deep are rejected
-/

namespace Verif.Json

/-- The first value of an array is not read. -/
theorem elements_none {value : List Char → Option (J × List Char)} {cs : List Char} (h : value cs = none) :
    ∀ fuel, parseElements value fuel cs = none
  | 0 => rfl
  | _ + 1 => by rw [parseElements, h]

/-- The first value of an object is not read. -/
theorem entries_none {value : List Char → Option (J × List Char)} {s : String} {w cs : List Char}
    (hw : skip w = strText s ++ (':' :: cs)) (h : value cs = none) : ∀ fuel, parseEntries value fuel w = none
  | 0 => rfl
  | _ + 1 => by
    obtain ⟨t, e1, e2⟩ := strText_read s (':' :: cs)
    rw [parseEntries, hw, e1]
    simp only [if_true, e2, skip_cons (by unfold blank; decide : ¬ blank ':'), h]

theorem parseValue_space (d : Nat) (r : List Char) : parseValue d (' ' :: r) = parseValue d r :=
  parseValue_skip (by rw [skip, if_pos (.inl rfl)])

mutual
theorem deep_read {P : Nat → Nat × Int} (hP : Prints P) : ∀ (j : J) (d ind : Nat), j.fits = true → d ≤ j.depth →
    ∀ rest, parseValue d (pretty P ind j ++ rest) = none
  | _, 0, _, _, _, _ => rfl
  | .null, _ + 1, _, _, hd, _ => by rw [J.depth] at hd <;> first | omega | (intros; contradiction)
  | .bool _, _ + 1, _, _, hd, _ => by rw [J.depth] at hd <;> first | omega | (intros; contradiction)
  | .num _, _ + 1, _, _, hd, _ => by rw [J.depth] at hd <;> first | omega | (intros; contradiction)
  | .flt _, _ + 1, _, _, hd, _ => by rw [J.depth] at hd <;> first | omega | (intros; contradiction)
  | .str _, _ + 1, _, _, hd, _ => by rw [J.depth] at hd <;> first | omega | (intros; contradiction)
  | .arr [], d + 1, ind, _, hd, rest => by
    rw [J.depth, J.depthList] at hd
    obtain rfl : d = 0 := by omega
    rfl
  | .arr (j :: l), d + 1, ind, hf, hd, rest => by
    rw [J.fits, J.fitsList, Bool.and_eq_true] at hf
    rw [J.depth, J.depthList] at hd
    have e0 : pretty P ind (.arr (j :: l)) ++ rest =
        '[' :: (newLine (ind + 1) ++ (pretty P (ind + 1) j ++ (prettyList P (ind + 1) l ++ (newLine ind ++ (']' :: rest))))) := by
      rw [pretty]; simp
    rw [e0, parseValue]
    show (if d = 0 then none else _) = _
    by_cases h0 : d = 0
    · rw [if_pos h0]
    rw [if_neg h0, skip_newLine, skip_pretty]
    obtain ⟨c, t, e, hc, hc2⟩ := pretty_head P (ind + 1) j
    have h3 : ∀ fuel, parseElements (parseValue d) fuel
        (pretty P (ind + 1) j ++ (prettyList P (ind + 1) l ++ (newLine ind ++ (']' :: rest)))) = none := by
      by_cases hj : d ≤ j.depth
      · exact elements_none (deep_read hP j d (ind + 1) hf.1 hj _)
      · exact deep_list hP l d (ind + 1) ind hf.2 (by omega) j _ rest
          (pretty_read hP j d (ind + 1) hf.1 (by omega) _ (stops_list P (ind + 1) ind l _))
    rw [e, List.cons_append] at h3 ⊢
    simp only [if_neg hc2]
    rw [h3]
    rfl
  | .obj [], d + 1, ind, _, hd, rest => by
    rw [J.depth, J.depthEntries] at hd
    obtain rfl : d = 0 := by omega
    rfl
  | .obj ((n, j) :: l), d + 1, ind, hf, hd, rest => by
    rw [J.fits, J.fitsEntries, Bool.and_eq_true] at hf
    rw [J.depth, J.depthEntries] at hd
    have e0 : pretty P ind (.obj ((n, j) :: l)) ++ rest =
        '{' :: (newLine (ind + 1) ++ (strText n ++ (':' :: ' ' :: (pretty P (ind + 1) j ++ (prettyEntries P (ind + 1) l ++
          (newLine ind ++ ('}' :: rest))))))) := by
      rw [pretty]; simp
    rw [e0, parseValue]
    show (if d = 0 then none else _) = _
    have hq : ∀ r, skip (strText n ++ r) = strText n ++ r := fun r => skip_cons (by unfold blank; decide)
    by_cases h0 : d = 0
    · rw [if_pos h0]
    rw [if_neg h0, skip_newLine, hq]
    have h3 : ∀ fuel, parseEntries (parseValue d) fuel (strText n ++ (':' :: ' ' :: (pretty P (ind + 1) j ++
        (prettyEntries P (ind + 1) l ++ (newLine ind ++ ('}' :: rest)))))) = none := by
      by_cases hj : d ≤ j.depth
      · refine entries_none (hq _) ?_
        rw [parseValue_space]
        exact deep_read hP j d (ind + 1) hf.1 hj _
      · exact deep_entries hP l d (ind + 1) ind hf.2 (by omega) n j _ rest
          (pretty_read hP j d (ind + 1) hf.1 (by omega) _ (stops_entries P (ind + 1) ind l _)) (hq _)
    have e : ∀ r, strText n ++ r = '"' :: (n.toList.flatMap escape ++ ['"'] ++ r) := fun r => rfl
    rw [e] at h3 ⊢
    simp only [if_neg (by decide : ¬ '"' = '}')]
    rw [h3]
    rfl

theorem deep_list {P : Nat → Nat × Int} (hP : Prints P) : ∀ (l : List J) (d ind n : Nat), J.fitsList l = true → d ≤ J.depthList l →
    ∀ (j : J) (cs rest : List Char), parseValue d cs = some (j, prettyList P ind l ++ (newLine n ++ (']' :: rest))) →
      ∀ fuel, parseElements (parseValue d) fuel cs = none
  | _, _, _, _, _, _, _, _, _, _, 0 => rfl
  | [], d, ind, n, _, hd, j, cs, rest, h, fuel + 1 => by
    rw [J.depthList] at hd
    obtain rfl : d = 0 := by omega
    cases h
  | k :: l, d, ind, n, hf, hd, j, cs, rest, h, fuel + 1 => by
    rw [J.fitsList, Bool.and_eq_true] at hf
    rw [J.depthList] at hd
    rw [elements_step h, prettyList, List.cons_append, skip_cons (by unfold blank; decide)]
    simp only [if_true]
    have e : ∀ v, parseValue d (pretty P ind k ++ (prettyList P ind l ++ (newLine n ++ (']' :: rest)))) = v →
        parseValue d (newLine ind ++ (pretty P ind k ++ prettyList P ind l) ++ (newLine n ++ ']' :: rest)) = v := by
      rintro v rfl
      rw [List.append_assoc, parseValue_skip (skip_newLine ind _), List.append_assoc]
    by_cases hk : d ≤ k.depth
    · rw [elements_none (e _ (deep_read hP k d ind hf.1 hk _))]
      rfl
    · rw [deep_list hP l d ind n hf.2 (by omega) k _ rest
        (e _ (pretty_read hP k d ind hf.1 (by omega) _ (stops_list P ind n l _))) fuel]
      rfl

theorem deep_entries {P : Nat → Nat × Int} (hP : Prints P) : ∀ (l : List (String × J)) (d ind n : Nat), J.fitsEntries l = true →
    d ≤ J.depthEntries l → ∀ (s : String) (j : J) (w rest : List Char),
      parseValue d (pretty P ind j ++ (prettyEntries P ind l ++ (newLine n ++ ('}' :: rest)))) =
        some (j, prettyEntries P ind l ++ (newLine n ++ ('}' :: rest))) →
      skip w = strText s ++ (':' :: ' ' :: (pretty P ind j ++ (prettyEntries P ind l ++ (newLine n ++ ('}' :: rest))))) →
      ∀ fuel, parseEntries (parseValue d) fuel w = none
  | _, _, _, _, _, _, _, _, _, _, _, _, 0 => rfl
  | [], d, ind, n, _, hd, s, j, w, rest, h, hw, fuel + 1 => by
    rw [J.depthEntries] at hd
    obtain rfl : d = 0 := by omega
    cases h
  | (t, k) :: l, d, ind, n, hf, hd, s, j, w, rest, h, hw, fuel + 1 => by
    rw [J.fitsEntries, Bool.and_eq_true] at hf
    rw [J.depthEntries] at hd
    have h' : parseValue d (' ' :: (pretty P ind j ++ (prettyEntries P ind ((t, k) :: l) ++ (newLine n ++ ('}' :: rest))))) =
        some (j, prettyEntries P ind ((t, k) :: l) ++ (newLine n ++ ('}' :: rest))) := by
      rw [← h]
      exact parseValue_skip (by rw [skip, if_pos (.inl rfl)])
    rw [entries_step hw h', prettyEntries, List.cons_append, skip_cons (by unfold blank; decide)]
    simp only [if_true]
    have hq : skip (newLine ind ++ (strText t ++ (':' :: ' ' :: (pretty P ind k ++ prettyEntries P ind l))) ++
        (newLine n ++ ('}' :: rest))) =
        strText t ++ (':' :: ' ' :: (pretty P ind k ++ (prettyEntries P ind l ++ (newLine n ++ ('}' :: rest))))) := by
      rw [List.append_assoc, skip_newLine]
      have e : strText t ++ (':' :: ' ' :: (pretty P ind k ++ prettyEntries P ind l)) ++ (newLine n ++ ('}' :: rest)) =
          strText t ++ (':' :: ' ' :: (pretty P ind k ++ (prettyEntries P ind l ++ (newLine n ++ ('}' :: rest))))) := by simp
      rw [e]
      exact skip_cons (by unfold blank; decide)
    by_cases hk : d ≤ k.depth
    · rw [entries_none hq (by
        rw [parseValue_space]
        exact deep_read hP k d ind hf.1 hk _)]
      rfl
    · rw [deep_entries hP l d ind n hf.2 (by omega) t k _ rest
        (pretty_read hP k d ind hf.1 (by omega) _ (stops_entries P ind n l _)) hq fuel]
      rfl
end

/-- The text of a value that is nested too deep is rejected. -/
theorem fromText_deep {P : Nat → Nat × Int} (hP : Prints P) (j : J) (hf : j.fits = true) (hd : 127 < j.depth) :
    fromText (toText P j) = none := by
  have h := deep_read hP j 128 0 hf (by omega) []
  rw [List.append_nil] at h
  rw [fromText, toText, String.toList_ofList, h]

/-! ## White space and other characters -/

theorem skip_eq_nil {r : List Char} : skip r = [] ↔ ∀ c ∈ r, blank c := by
  induction r with
  | nil => simp [skip]
  | cons c r ih =>
    rw [skip]
    split
    · rename_i h
      simp only [List.mem_cons, forall_eq_or_imp]
      exact ⟨fun e => ⟨h, ih.mp e⟩, fun e => ih.mpr e.2⟩
    · rename_i h
      exact ⟨fun e => (by cases e), fun e => absurd (e c (by simp)) h⟩

theorem skip_blank {a r : List Char} (h : ∀ c ∈ a, blank c) : skip (a ++ r) = skip r := by
  induction a with
  | nil => rfl
  | cons c a ih =>
    rw [List.cons_append, skip, if_pos (show _ ∨ _ from h c (by simp))]
    exact ih fun x hx => h x (by simp [hx])

/-- The text with characters before and after it. -/
theorem fromText_around {P : Nat → Nat × Int} (hP : Prints P) (j : J) (hf : j.fits = true) (hd : j.depth ≤ 127) {a r : List Char}
    (ha : ∀ c ∈ a, blank c) (hr : Stops r) :
    fromText (String.ofList (a ++ ((toText P j).toList ++ r))) = if skip r = [] then some j else none := by
  have h := pretty_read hP j 128 0 hf (by omega) r hr
  rw [fromText, toText, String.toList_ofList, String.toList_ofList, parseValue_skip (skip_blank ha), h]

/-! ## The characters of the text -/

/-- Printable, or the end of a line. -/
def Plain (c : Char) : Prop := 32 ≤ c.toNat ∨ c = '\n'

instance (c : Char) : Decidable (Plain c) := inferInstanceAs (Decidable (_ ∨ _))

theorem plain_digit {c : Char} (h : c.isDigit = true) : Plain c := by
  rw [Char.isDigit_iff_toNat, show '0'.toNat = 48 from rfl] at h
  exact .inl (by omega)

theorem plain_nat (n : Nat) : ∀ c ∈ natText n, Plain c := fun c hc => plain_digit (natText_digits n c hc)

theorem plain_int (n : Int) : ∀ c ∈ intText n, Plain c := by
  intro c hc
  rw [intText] at hc
  split at hc
  · rcases List.mem_cons.mp hc with rfl | hc
    · decide
    · exact plain_nat _ c hc
  · exact plain_nat _ c hc

theorem plain_decimal (m : Nat) (k : Int) : ∀ c ∈ decimalText m k, Plain c := by
  intro c hc
  have hz : Plain '0' := by decide
  have hp : Plain '.' := by decide
  have he : Plain 'e' := by decide
  have hn := plain_nat m
  have ht : ∀ i, ∀ c ∈ (natText m).take i, Plain c := fun i c h => hn c (List.mem_of_mem_take h)
  have hd : ∀ i, ∀ c ∈ (natText m).drop i, Plain c := fun i c h => hn c (List.mem_of_mem_drop h)
  have hr : ∀ i, ∀ c ∈ List.replicate i '0', Plain c := fun i c h => (List.mem_replicate.mp h).2 ▸ hz
  unfold decimalText at hc
  simp only at hc
  split at hc
  · simp only [List.mem_append, List.mem_cons, List.not_mem_nil, or_false] at hc
    rcases hc with (h | h) | rfl | rfl
    exacts [hn c h, hr _ c h, hp, hz]
  split at hc
  · simp only [List.mem_append, List.mem_cons] at hc
    rcases hc with h | rfl | h
    exacts [ht _ c h, hp, hd _ c h]
  split at hc
  · simp only [List.mem_append, List.mem_cons] at hc
    rcases hc with rfl | rfl | h | h
    exacts [hz, hp, hr _ c h, hn c h]
  split at hc
  · simp only [List.mem_append, List.mem_cons] at hc
    rcases hc with h | rfl | h
    exacts [hn c h, he, plain_int _ c h]
  · simp only [List.mem_append, List.mem_cons] at hc
    rcases hc with h | rfl | h | rfl | h
    exacts [ht _ c h, hp, hd _ c h, he, plain_int _ c h]

theorem plain_float (P : Nat → Nat × Int) (x : F32) : ∀ c ∈ floatText P x, Plain c := by
  intro c hc
  obtain ⟨body, d, r, -, -, ht, hb⟩ := floatText_cases P x
  rw [ht] at hc
  have h : ∀ c ∈ body, Plain c := by
    intro c hc
    rw [hb] at hc
    split at hc
    · revert c; decide
    · exact plain_decimal _ _ c hc
  split at hc
  · rcases List.mem_cons.mp hc with rfl | hc
    · decide
    · exact h c hc
  · exact h c hc

theorem plain_hexDigit : ∀ n, n < 16 → Plain (JCodec.hexDigit n) := by decide

theorem plain_escape (x : Char) : ∀ c ∈ escape x, Plain c := by
  intro c hc
  have hb : Plain '\\' := by decide
  unfold escape at hc
  repeat' split at hc
  all_goals simp only [List.mem_cons, List.not_mem_nil, or_false] at hc
  · rcases hc with rfl | rfl <;> decide
  · rcases hc with rfl | rfl <;> decide
  · rcases hc with rfl | rfl <;> decide
  · rcases hc with rfl | rfl <;> decide
  · rcases hc with rfl | rfl <;> decide
  · rcases hc with rfl | rfl <;> decide
  · rcases hc with rfl | rfl <;> decide
  · rcases hc with rfl | rfl | rfl | rfl | rfl | rfl
    · decide
    · decide
    · decide
    · decide
    · exact plain_hexDigit _ (by omega)
    · exact plain_hexDigit _ (by omega)
  · subst hc
    exact .inl (by omega)

theorem plain_str (s : String) : ∀ c ∈ strText s, Plain c := by
  intro c hc
  simp only [strText, List.mem_cons, List.mem_append, List.mem_flatMap, List.not_mem_nil, or_false] at hc
  rcases hc with rfl | ⟨x, -, h⟩ | rfl
  · decide
  · exact plain_escape x c h
  · decide

theorem plain_newLine (n : Nat) : ∀ c ∈ newLine n, Plain c := by
  intro c hc
  rcases List.mem_cons.mp hc with rfl | hc
  · decide
  · rw [(List.mem_replicate.mp hc).2]
    decide

theorem plain_cons {x : Char} {l : List Char} (hx : Plain x) (hl : ∀ c ∈ l, Plain c) : ∀ c ∈ x :: l, Plain c := by
  intro c hc
  rcases List.mem_cons.mp hc with rfl | hc
  exacts [hx, hl c hc]

theorem plain_append {a b : List Char} (ha : ∀ c ∈ a, Plain c) (hb : ∀ c ∈ b, Plain c) : ∀ c ∈ a ++ b, Plain c := by
  intro c hc
  rcases List.mem_append.mp hc with hc | hc
  exacts [ha c hc, hb c hc]

mutual
theorem plain_pretty (P : Nat → Nat × Int) : ∀ (ind : Nat) (j : J), ∀ c ∈ pretty P ind j, Plain c
  | _, .null => by rw [pretty]; decide
  | _, .bool true => by rw [pretty]; decide
  | _, .bool false => by rw [pretty]; decide
  | _, .num n => by rw [pretty]; exact plain_int n
  | _, .flt x => by rw [pretty]; exact plain_float P x
  | _, .str s => by rw [pretty]; exact plain_str s
  | _, .arr [] => by rw [pretty]; decide
  | ind, .arr (j :: l) => by
    rw [pretty]
    exact plain_cons (by decide) (plain_append (plain_newLine _) (plain_append (plain_pretty P _ j)
      (plain_append (plain_list P _ l) (plain_append (plain_newLine _) (by decide)))))
  | _, .obj [] => by rw [pretty]; decide
  | ind, .obj ((n, j) :: l) => by
    rw [pretty]
    exact plain_cons (by decide) (plain_append (plain_newLine _) (plain_append (plain_str n)
      (plain_cons (by decide) (plain_cons (by decide) (plain_append (plain_pretty P _ j)
      (plain_append (plain_entries P _ l) (plain_append (plain_newLine _) (by decide))))))))

theorem plain_list (P : Nat → Nat × Int) : ∀ (ind : Nat) (l : List J), ∀ c ∈ prettyList P ind l, Plain c
  | _, [] => by rw [prettyList]; simp
  | ind, j :: l => by
    rw [prettyList]
    exact plain_cons (by decide) (plain_append (plain_newLine _) (plain_append (plain_pretty P _ j) (plain_list P _ l)))

theorem plain_entries (P : Nat → Nat × Int) : ∀ (ind : Nat) (l : List (String × J)), ∀ c ∈ prettyEntries P ind l, Plain c
  | _, [] => by rw [prettyEntries]; simp
  | ind, (n, j) :: l => by
    rw [prettyEntries]
    exact plain_cons (by decide) (plain_append (plain_newLine _) (plain_append (plain_str n)
      (plain_cons (by decide) (plain_cons (by decide) (plain_append (plain_pretty P _ j) (plain_entries P _ l))))))
end

end Verif.Json
