import Verif.Json.Shape
import Verif.Json.Laws

namespace Verif

/-- The documents that a type reads and writes. `p` is the document of a missing field. -/
class HasShape (c : JCodec α) (s : outParam Shape) (p : outParam (Option J)) : Prop where
  canon : ∀ j, (c.de j).map c.ser = s.canon j
  miss : c.miss.map c.ser = p

class HasFields (r : JRec α) (fs : outParam Shape.Fields) : Prop where
  names : r.names = fs.names
  entries : ∀ l : List (String × J), (r.de (fun n => l.lookup n)).map (fun v => r.names.zip (r.ser v)) = fs.ofEntries l
  elements : ∀ l : List J, (match r.deSeq l with
    | some (v, []) => some (r.names.zip (r.ser v))
    | _ => none) = fs.ofElements l

instance : HasShape JCodec.boolean .bool none where
  canon j := by cases j <;> rfl
  miss := rfl

theorem integer_shape {lo hi : Int} {f : α → Int} {g : Int → α} (h : ∀ n, lo ≤ n → n ≤ hi → f (g n) = n) :
    HasShape (JCodec.integer lo hi f g) (.int lo hi) none where
  canon j := by
    cases j <;> try rfl
    rename_i n
    simp only [JCodec.integer, Shape.canon]
    split
    · rename_i hn
      simp [h n hn.1 hn.2]
    · rfl
  miss := rfl

instance : HasShape JCodec.u8 (.int 0 255) none := integer_shape fun n h1 h2 => by
  show ((UInt8.ofNat n.toNat).toNat : Int) = n
  rw [UInt8.toNat_ofNat']; omega
instance : HasShape JCodec.u16 (.int 0 65535) none := integer_shape fun n h1 h2 => by
  show ((UInt16.ofNat n.toNat).toNat : Int) = n
  rw [UInt16.toNat_ofNat']; omega
instance : HasShape JCodec.u32 (.int 0 4294967295) none := integer_shape fun n h1 h2 => by
  show ((UInt32.ofNat n.toNat).toNat : Int) = n
  rw [UInt32.toNat_ofNat']; omega
instance : HasShape JCodec.u64 (.int 0 18446744073709551615) none := integer_shape fun n h1 h2 => by
  show ((UInt64.ofNat n.toNat).toNat : Int) = n
  rw [UInt64.toNat_ofNat']; omega
instance : HasShape JCodec.usize (.int 0 18446744073709551615) none := integer_shape fun n h1 h2 => by
  show ((n.toNat : Nat) : Int) = n
  omega
instance : HasShape JCodec.i16 (.int (-32768) 32767) none := integer_shape fun n h1 h2 =>
  Int16.toInt_ofInt_of_le (by omega) (by omega)
instance : HasShape JCodec.i32 (.int (-2147483648) 2147483647) none := integer_shape fun n h1 h2 =>
  Int32.toInt_ofInt_of_le (by omega) (by omega)

theorem f32_ser (x : F32) : JCodec.f32.ser x = Shape.ofFloat x := by
  have := special_iff x
  simp only [JCodec.f32, Shape.ofFloat]
  by_cases h : x.toNat / 2 ^ 23 % 256 = 255
  · rw [if_pos h, if_pos (this.mpr h)]
  · rw [if_neg h, if_neg (mt this.mp h)]

instance : HasShape JCodec.f32 .float none where
  canon j := by
    cases j <;> try rfl
    · rename_i n
      show Option.map JCodec.f32.ser (if 0 ≤ n then _ else _) = some (Shape.ofFloat (Shape.nearest n))
      simp only [Shape.nearest]
      split <;> simp only [Option.map_some, f32_ser]
    · rename_i x
      show some (JCodec.f32.ser x) = some (Shape.ofFloat x)
      rw [f32_ser]
  miss := rfl

instance : HasShape JCodec.string .text none where
  canon j := by cases j <;> rfl
  miss := rfl

theorem zero_mem_char (c : Char) : (0 : UInt8) ∈ String.utf8EncodeChar c ↔ c = Char.ofNat 0 := by
  have hc : c = Char.ofNat 0 ↔ c.val.toNat = 0 := by
    constructor
    · rintro rfl; rfl
    · intro h
      apply Char.ext
      apply UInt32.toNat_inj.mp
      rw [h]; rfl
  have hv : c.val.toNat < 1114112 := by
    have := c.valid
    simp only [UInt32.isValidChar, Nat.isValidChar] at this
    omega
  have key : ∀ n, (0 : UInt8) = UInt8.ofNat n ↔ n % 256 = 0 := by
    intro n
    rw [← UInt8.toNat_inj, UInt8.toNat_ofNat']
    simp [eq_comm]
  rw [hc]
  simp only [String.utf8EncodeChar]
  generalize c.val.toNat = v at *
  split
  · simp only [List.mem_singleton, key]; omega
  · split
    · simp only [List.mem_cons, List.not_mem_nil, or_false, key]; omega
    · split
      · simp only [List.mem_cons, List.not_mem_nil, or_false, key]; omega
      · simp only [List.mem_cons, List.not_mem_nil, or_false, key]; omega

theorem zero_mem_text (s : String) : (0 : UInt8) ∈ textBytes s ↔ Char.ofNat 0 ∈ s.toList := by
  rw [textBytes, ← String.utf8Encode_toList, List.utf8Encode]
  rw [List.data_toByteArray]
  simp only [List.mem_flatMap, zero_mem_char]
  exact ⟨fun ⟨c, h, e⟩ => e ▸ h, fun h => ⟨_, h, rfl⟩⟩

theorem cstr_text {s : String} (h : (0 : UInt8) ∉ textBytes s) : JCodec.cstr.ser ⟨textBytes s, h⟩ = .str s := by
  simp only [JCodec.cstr, CStr.fromBytes, takeWhile_noNull h, CStr.toStr]
  rw [fromUtf8_textBytes]
  rfl

instance : HasShape JCodec.cstr .ctext none where
  canon j := by
    cases j <;> try rfl
    rename_i s
    have e : JCodec.cstr.de (.str s) = if h : (0 : UInt8) ∉ textBytes s then some ⟨textBytes s, h⟩ else none := rfl
    rw [e]
    simp only [Shape.canon]
    by_cases h : (0 : UInt8) ∈ textBytes s
    · rw [dif_neg (by simpa using h), if_pos ((zero_mem_text s).mp h)]
      rfl
    · rw [dif_pos h, if_neg (mt (zero_mem_text s).mpr h)]
      exact congrArg some (cstr_text h)
  miss := rfl

theorem hex_char : ∀ (c : Char) (n : Nat), JCodec.hexValue c = some n → Shape.isHex c = true ∧ n < 16 ∧ JCodec.hexDigit n = c.toLower := by
  intro c n h
  have h128 : c.toNat < 128 := by
    simp only [JCodec.hexValue] at h
    have hle : ∀ a b : Char, a ≤ b ↔ a.toNat ≤ b.toNat := fun a b => Iff.rfl
    simp only [hle] at h
    split at h
    · rename_i h'
      have : ('9' : Char).toNat = 57 := rfl
      omega
    · split at h
      · rename_i h'
        have : ('f' : Char).toNat = 102 := rfl
        omega
      · split at h
        · rename_i h'
          have : ('F' : Char).toNat = 70 := rfl
          omega
        · cases h
  have key : ∀ k, k < 128 → (match JCodec.hexValue (Char.ofNat k) with
      | some n => Shape.isHex (Char.ofNat k) && decide (n < 16) && (JCodec.hexDigit n == (Char.ofNat k).toLower)
      | none => true) = true := by decide +kernel
  have := key c.toNat h128
  rw [Char.ofNat_toNat, h] at this
  simpa [and_assoc] using this

theorem hex_none : ∀ (c : Char), JCodec.hexValue c = none → Shape.isHex c = false := by
  intro c h
  have hle : ∀ a b : Char, a ≤ b ↔ a.toNat ≤ b.toNat := fun a b => Iff.rfl
  simp only [JCodec.hexValue] at h
  split at h
  · cases h
  · split at h
    · cases h
    · split at h
      · cases h
      · rename_i h1 h2 h3
        rw [Bool.eq_false_iff]
        intro h
        simp only [Shape.isHex, Bool.or_eq_true, Bool.and_eq_true, decide_eq_true_eq] at h
        rcases h with (h | h) | h
        · apply h1
          simp only [Char.isDigit, Bool.and_eq_true, decide_eq_true_eq] at h
          exact h
        · exact h2 h
        · exact h3 h

theorem hex_canon : ∀ (cs : List Char), (JCodec.hexDecode cs).map JCodec.hexEncode =
    if cs.length % 2 = 0 ∧ cs.all Shape.isHex then some (cs.map Char.toLower) else none
  | [] => rfl
  | [_] => by simp [JCodec.hexDecode]
  | c :: d :: cs => by
    have ih := hex_canon cs
    simp only [JCodec.hexDecode]
    have hl : (c :: d :: cs).length % 2 = cs.length % 2 := by simp [Nat.add_assoc]
    rw [hl]
    cases hc : JCodec.hexValue c with
    | none => simp [hex_none c hc]
    | some x =>
      cases hd : JCodec.hexValue d with
      | none => simp [hex_none d hd]
      | some y =>
        obtain ⟨c1, c2, c3⟩ := hex_char c x hc
        obtain ⟨d1, d2, d3⟩ := hex_char d y hd
        simp only [List.all_cons, c1, d1, Bool.true_and]
        cases hr : JCodec.hexDecode cs with
        | none =>
          rw [hr] at ih
          simp only [Option.map_none] at ih ⊢
          split at ih
          · cases ih
          · rename_i h; rw [if_neg h]
        | some bs =>
          rw [hr] at ih
          simp only [Option.map_some] at ih ⊢
          split at ih
          · rename_i h
            rw [if_pos h]
            simp only [JCodec.hexEncode, List.map_cons]
            have e : (UInt8.ofNat (16 * x + y)).toNat = 16 * x + y := by
              rw [UInt8.toNat_ofNat']; omega
            rw [e, show (16 * x + y) / 16 = x by omega, show (16 * x + y) % 16 = y by omega, c3, d3, Option.some.inj ih]
          · cases ih

instance : HasShape JCodec.hex .hex none where
  canon j := by
    cases j <;> try rfl
    rename_i s
    have h := hex_canon s.toList
    show (JCodec.hexDecode s.toList).map (fun bs => J.str (String.ofList (JCodec.hexEncode bs))) = _
    simp only [Shape.canon]
    have e : (JCodec.hexDecode s.toList).map (fun bs => J.str (String.ofList (JCodec.hexEncode bs))) =
      ((JCodec.hexDecode s.toList).map JCodec.hexEncode).map (fun l => J.str (String.ofList l)) := by
      rw [Option.map_map]; rfl
    rw [e, h]
    split <;> rfl
  miss := rfl

instance : HasShape JCodec.unit .unit none where
  canon j := by cases j <;> rfl
  miss := rfl

theorem deList_shape {c : JCodec α} [h : HasShape c s p] : ∀ l, (JCodec.deList c l).map (fun vs => vs.map c.ser) =
    l.mapM (fun j => s.canon j)
  | [] => rfl
  | j :: l => by
    have ih := deList_shape (h := h) l
    rw [List.mapM_cons, ← h.canon j, ← ih]
    simp only [JCodec.deList]
    cases c.de j with
    | none => rfl
    | some x =>
      cases JCodec.deList c l with
      | none => rfl
      | some xs => rfl

instance {c : JCodec α} [h : HasShape c s p] : HasShape (JCodec.vec c) (.list s) none where
  canon j := by
    cases j <;> try rfl
    rename_i l
    show (JCodec.deList c l).map (fun vs => J.arr (vs.map c.ser)) = (l.mapM (fun j => s.canon j)).map .arr
    rw [← deList_shape (h := h), Option.map_map]
    rfl
  miss := rfl

instance {c : JCodec α} [h : HasShape c s p] : HasShape (JCodec.array c) (.list s) none :=
  inferInstanceAs (HasShape (JCodec.vec c) (.list s) none)

theorem deList_length {c : JCodec α} : ∀ {l vs}, JCodec.deList c l = some vs → vs.length = l.length
  | [], vs, h => by cases h; rfl
  | j :: l, vs, h => by
    simp only [JCodec.deList] at h
    cases h1 : c.de j with
    | none => rw [h1] at h; cases h
    | some x =>
      cases h2 : JCodec.deList c l with
      | none => rw [h1, h2] at h; cases h
      | some xs =>
        rw [h1, h2] at h
        cases h
        simp [deList_length h2]

instance {c : JCodec α} [h : HasShape c s p] : HasShape (JCodec.arrayN n c) (.array n s) none where
  canon j := by
    cases j <;> try rfl
    rename_i l
    simp only [Shape.canon]
    rw [← deList_shape (h := h)]
    simp only [JCodec.arrayN]
    cases hd : JCodec.deList c l with
    | none => simp
    | some xs =>
      have hl := deList_length hd
      by_cases hn : l.length = n
      · simp only
        rw [if_pos hn, dif_pos (by simpa [hl] using hn)]
        simp [Vector.toList]
      · simp only
        rw [if_neg hn, dif_neg (by simpa [hl] using hn)]
        rfl
  miss := rfl

theorem opt_canon (s : Shape) (j : J) : (Shape.opt s).canon j = match j with | .null => some .null | j => s.canon j := by
  cases j <;> rfl

theorem orNull_canon (s : Shape) (d j : J) : (Shape.orNull s d).canon j = match j with | .null => some d | j => s.canon j := by
  cases j <;> rfl

theorem option_de (c : JCodec α) (j : J) : (JCodec.option c).de j = match j with | .null => some none | j => (c.de j).map some := by
  cases j <;> simp only [JCodec.option] <;> (split <;> simp_all)

instance {c : JCodec α} [h : HasShape c s p] : HasShape (JCodec.option c) (.opt s) (some .null) where
  canon j := by
    have := h.canon j
    rw [opt_canon, option_de]
    cases j <;> first | rfl | (simp only [Option.map_map, ← this]; rfl)
  miss := rfl

instance {c : JCodec α} [h : HasShape c s p] : HasShape (JCodec.newtype c) s none where
  canon := h.canon
  miss := rfl

instance {c : JCodec α} [h : HasShape c s p] : HasShape (JCodec.relPtr c) (.opt s) none :=
  inferInstanceAs (HasShape (JCodec.newtype (JCodec.option c)) (.opt s) none)

instance {c : JCodec α} [h : HasShape c s p] : HasShape (JCodec.ptr c) (.opt s) (some .null) :=
  inferInstanceAs (HasShape (JCodec.option c) (.opt s) (some .null))

instance : HasShape JCodec.ssbhString (.opt .ctext) none :=
  inferInstanceAs (HasShape (JCodec.newtype (JCodec.relPtr (JCodec.newtype JCodec.cstr))) (.opt .ctext) none)

theorem HasShape.via {c : JCodec β} (h : HasShape c s p) {f : α → β} {g : β → α} (hfg : ∀ x, f (g x) = x) :
    HasShape (JCodec.via c f g) s p where
  canon j := by
    rw [← h.canon j]
    simp only [JCodec.via, Option.map_map]
    cases c.de j <;> simp [hfg]
  miss := by
    rw [← h.miss]
    simp only [JCodec.via, Option.map_map]
    cases c.miss <;> simp [hfg]

theorem HasShape.orNull {c : JCodec α} (h : HasShape c s p) {d : α} {k : J} (hd : c.ser d = k) :
    HasShape (JCodec.orNull c d) (.orNull s k) none where
  canon j := by
    have := h.canon j
    rw [orNull_canon]
    simp only [JCodec.orNull, option_de]
    cases j <;> first | exact congrArg some hd | (simp only [Option.map_map, ← this]; rfl)
  miss := rfl

theorem mem_iff_lookup [BEq α] [LawfulBEq α] : ∀ {as : List α} {bs : List β}, as.length = bs.length → ∀ a,
    a ∈ as ↔ ((as.zip bs).lookup a).isSome = true
  | [], _, _, a => by simp
  | _ :: _, [], h, _ => by simp at h
  | x :: as, y :: bs, h, a => by
    rw [List.zip_cons_cons, List.lookup_cons, List.mem_cons]
    by_cases e : a = x
    · simp [e]
    · have : (a == x) = false := by simpa using e
      rw [this]
      simp only [e, false_or]
      exact mem_iff_lookup (by simpa using h) a

theorem HasShape.enumNames {names : List String} {tags : List Nat} (h1 : names.Nodup) (h2 : tags.Nodup)
    (h3 : names.length = tags.length) : HasShape (JCodec.enumNames names tags) (.names names) none where
  canon j := by
    have key : ∀ s, (((names.zip tags).lookup s).bind (ReprEnum.ofNat tags)).map (JCodec.enumNames names tags).ser =
        if s ∈ names then some (.str s) else none := by
      intro s
      have hm := mem_iff_lookup h3 s
      cases hl : (names.zip tags).lookup s with
      | none =>
        rw [hl] at hm
        rw [if_neg (by simpa using hm)]
        rfl
      | some t =>
        rw [hl] at hm
        have hs := hm.mpr rfl
        rw [if_pos hs]
        have ht : t ∈ tags := (List.of_mem_zip (mem_of_lookup hl)).2
        obtain ⟨t', e1, e2⟩ := lookup_zip h1 h2 h3 hs
        rw [hl] at e1
        cases e1
        simp only [Option.bind_some, ReprEnum.ofNat, dif_pos ht, Option.map_some]
        simp only [JCodec.enumNames, e2, Option.getD_some]
    cases j <;> try rfl
    · exact key _
    · rename_i l
      match l with
      | [] => rfl
      | [(s, j)] => cases j <;> first | exact key s | rfl
      | (_, j) :: _ :: _ => cases j <;> rfl
  miss := rfl

theorem HasShape.variants [DecidableEq α] {l : List (String × α)} (h2 : (l.map (·.2)).Nodup) :
    HasShape (JCodec.variants l) (.names (l.map (·.1))) none where
  canon j := by
    have key : ∀ s, (l.lookup s).map (JCodec.variants l).ser = if s ∈ l.map (·.1) then some (.str s) else none := by
      intro s
      have hz : l = (l.map (·.1)).zip (l.map (·.2)) := by
        rw [List.zip_map', List.map_id']
      have hm := mem_iff_lookup (as := l.map (·.1)) (bs := l.map (·.2)) (by simp) s
      rw [← hz] at hm
      cases hl : l.lookup s with
      | none =>
        rw [hl] at hm
        rw [if_neg (by simpa using hm)]
        rfl
      | some v =>
        rw [hl] at hm
        rw [if_pos (hm.mpr rfl)]
        have hmem := mem_of_lookup hl
        have hf : l.find? (fun e => decide (e.2 = v)) = some (s, v) := by
          clear hz hm hl
          induction l with
          | nil => simp at hmem
          | cons e l ih =>
            rw [List.map_cons, List.nodup_cons] at h2
            rw [List.find?_cons]
            by_cases he : e.2 = v
            · rcases List.mem_cons.mp hmem with rfl | hx
              · simp
              · exact absurd (List.mem_map.mpr ⟨(s, v), hx, rfl⟩) (he ▸ h2.1)
            · simp only [he, decide_false]
              rcases List.mem_cons.mp hmem with rfl | hx
              · exact absurd rfl he
              · exact ih h2.2 hx
        simp only [Option.map_some, JCodec.variants, hf, Option.getD_some]
    cases j <;> try rfl
    · exact key _
    · rename_i m
      match m with
      | [] => rfl
      | [(s, j)] => cases j <;> first | exact key s | rfl
      | (_, j) :: _ :: _ => cases j <;> rfl
  miss := rfl

/-! ## Structs -/

instance {c : JCodec α} [h : HasShape c s p] : HasFields (.field n c) (.cons n p false s .nil) where
  names := rfl
  entries l := by
    simp only [JRec.field, Shape.Fields.ofEntries]
    cases l.lookup n with
    | none =>
      simp only [Option.elim_none, ← h.miss]
      cases c.miss <;> rfl
    | some j =>
      simp only [Option.elim_some, ← h.canon j]
      cases c.de j <;> rfl
  elements l := by
    match l with
    | [] => rfl
    | [j] =>
      simp only [JRec.field, Shape.Fields.ofElements, ← h.canon j]
      cases c.de j <;> rfl
    | j :: k :: l =>
      simp only [JRec.field, Shape.Fields.ofElements]
      cases c.de j <;> cases s.canon j <;> rfl

theorem HasFields.last {c : JCodec α} (h : HasShape c s p) {d : α} {k : J} (hd : c.ser d = k) :
    HasFields (.fieldOr n c d) (.cons n (some k) true s .nil) where
  names := rfl
  entries l := by
    simp only [JRec.fieldOr, Shape.Fields.ofEntries]
    cases l.lookup n with
    | none => simp [hd]
    | some j =>
      simp only [Option.elim_some, ← h.canon j]
      cases c.de j <;> rfl
  elements l := by
    match l with
    | [] => simp [JRec.fieldOr, Shape.Fields.ofElements, hd]
    | [j] =>
      simp only [JRec.fieldOr, Shape.Fields.ofElements, ← h.canon j]
      cases c.de j <;> rfl
    | j :: k :: l =>
      simp only [JRec.fieldOr, Shape.Fields.ofElements]
      cases c.de j <;> cases s.canon j <;> rfl

instance {c : JCodec α} {q : JRec β} [h : HasShape c s p] [hq : HasFields q fs] :
    HasFields (.and (.field n c) q) (.cons n p false s fs) where
  names := congrArg (n :: ·) hq.names
  entries l := by
    have ih := hq.entries l
    simp only [JRec.and, Shape.Fields.ofEntries]
    rw [← ih]
    have hx : ((JRec.field n c).de (fun n => l.lookup n)).map c.ser = (l.lookup n).elim p (fun j => s.canon j) := by
      simp only [JRec.field]
      cases l.lookup n with
      | none => exact h.miss
      | some j => exact h.canon j
    rw [← hx]
    cases (JRec.field n c).de (fun n => l.lookup n) with
    | none => rfl
    | some v => cases q.de (fun n => l.lookup n) <;> rfl
  elements l := by
    match l with
    | [] => rfl
    | j :: l =>
      have ih := hq.elements l
      simp only [JRec.and, JRec.field, Shape.Fields.ofElements]
      rw [← h.canon j, ← ih]
      cases c.de j with
      | none => rfl
      | some v =>
        simp only
        cases q.deSeq l with
        | none => rfl
        | some e =>
          obtain ⟨w, m⟩ := e
          cases m <;> rfl

theorem HasFields.next {c : JCodec α} {q : JRec β} [h : HasShape c s p] (hq : HasFields q fs) :
    HasFields (.and (.field n c) q) (.cons n p false s fs) := inferInstance

theorem HasFields.more {c : JCodec α} {q : JRec β} (h : HasShape c s p) {d : α} {k : J} (hd : c.ser d = k) (hq : HasFields q fs) :
    HasFields (.and (.fieldOr n c d) q) (.cons n (some k) true s fs) where
  names := congrArg (n :: ·) hq.names
  entries l := by
    have ih := hq.entries l
    simp only [JRec.and, Shape.Fields.ofEntries]
    rw [← ih]
    have hx : ((JRec.fieldOr n c d).de (fun n => l.lookup n)).map c.ser = (l.lookup n).elim (some k) (fun j => s.canon j) := by
      simp only [JRec.fieldOr]
      cases l.lookup n with
      | none => exact congrArg some hd
      | some j => exact h.canon j
    rw [← hx]
    cases (JRec.fieldOr n c d).de (fun n => l.lookup n) with
    | none => rfl
    | some v => cases q.de (fun n => l.lookup n) <;> rfl
  elements l := by
    match l with
    | [] =>
      have ih := hq.elements []
      simp only [JRec.and, JRec.fieldOr, Shape.Fields.ofElements, if_true]
      rw [← ih, ← hd]
      cases q.deSeq [] with
      | none => rfl
      | some e =>
        obtain ⟨w, m⟩ := e
        cases m <;> rfl
    | j :: l =>
      have ih := hq.elements l
      simp only [JRec.and, JRec.fieldOr, Shape.Fields.ofElements]
      rw [← h.canon j, ← ih]
      cases c.de j with
      | none => rfl
      | some v =>
        simp only
        cases q.deSeq l with
        | none => rfl
        | some e =>
          obtain ⟨w, m⟩ := e
          cases m <;> rfl

theorem once_iff (names : List String) (l : List (String × J)) :
    names.all (Shape.once l) = !(JCodec.duplicate names l) := by
  induction names with
  | nil => rfl
  | cons n names ih =>
    simp only [JCodec.duplicate] at ih
    simp only [List.all_cons, ih, JCodec.duplicate, List.any_cons, Bool.not_or]
    congr 1
    simp only [Shape.once, List.countP_eq_length_filter]
    by_cases hn : (l.filter (fun e => e.1 == n)).length ≤ 1
    · rw [decide_eq_true hn, decide_eq_false (by omega)]; rfl
    · rw [decide_eq_false hn, decide_eq_true (by omega)]; rfl

theorem HasShape.struct {r : JRec β} [h : HasFields r fs] {f : α → β} {g : β → α} (hfg : ∀ x, f (g x) = x) :
    HasShape (JCodec.struct r f g) (.record fs) none where
  canon j := by
    cases j <;> try rfl
    · rename_i l
      have e := h.elements l
      simp only [Shape.canon, JCodec.struct]
      rw [← e]
      cases r.deSeq l with
      | none => rfl
      | some x =>
        obtain ⟨v, m⟩ := x
        cases m with
        | nil => simp [hfg]
        | cons => rfl
    · rename_i l
      have e := h.entries l
      simp only [Shape.canon, JCodec.struct]
      rw [← h.names, once_iff, ← e]
      cases JCodec.duplicate r.names l with
      | true => rfl
      | false =>
        simp only [Bool.false_eq_true, if_false, Bool.not_false, if_true, Option.map_map]
        cases r.de (fun n => l.lookup n) <;> simp [hfg]
  miss := rfl

instance : HasShape JCodec.bitfield16 (.record (.cons "bytes" none false (.array 2 (.int 0 255)) .nil)) none :=
  HasShape.struct bitfield2_bytes

instance : HasShape JCodec.bitfield32 (.record (.cons "bytes" none false (.array 4 (.int 0 255)) .nil)) none :=
  HasShape.struct bitfield4_bytes

instance {c : JCodec α} [h : HasShape c s p] :
    HasShape (JCodec.enum64 c) (.record (.cons "data" none false (.opt s) .nil)) none :=
  HasShape.struct (fun _ => rfl)

/-! ## Enums with data -/

theorem HasShape.choice {c : JCodec α} {vs : Shape.Variants} (f : String → J → Option α)
    (h1 : ∀ n j, c.de (.obj [(n, j)]) = f n j) (h2 : ∀ l, l.length ≠ 1 → c.de (.obj l) = none)
    (h3 : ∀ j, (∀ l, j ≠ .obj l) → c.de j = none) (h4 : ∀ n j, (f n j).map c.ser = vs.canon n j) (hm : c.miss = none) :
    HasShape c (.choice vs) none where
  canon j := by
    cases j with
    | obj l =>
      match l with
      | [] => rw [h2 _ (by simp)]; rfl
      | [(n, j)] => rw [h1, h4]; rfl
      | _ :: _ :: _ => rw [h2 _ (by simp)]; rfl
    | _ => rw [h3 _ (by simp)]; rfl
  miss := by rw [hm]; rfl

theorem choice_nil {ser : α → J} {n : String} {j : J} : (none : Option α).map ser = Shape.Variants.nil.canon n j := rfl

theorem choice_cons {c : JCodec β} [h : HasShape c s p] {k : β → α} {ser : α → J} {a n : String} {j : J} {o : Option α} {vs : Shape.Variants}
    (hk : ∀ v, ser (k v) = .obj [(a, c.ser v)]) (ho : o.map ser = vs.canon n j) :
    (if n = a then (c.de j).map k else o).map ser = (Shape.Variants.cons a s vs).canon n j := by
  simp only [Shape.Variants.canon]
  split
  · rw [← h.canon j]
    cases c.de j with
    | none => rfl
    | some v => simp [hk]
  · exact ho

/-! ## Numbers -/

/-- The variant with a number is written as its name. -/
def JNumbers {tags : List Nat} (c : JCodec (ReprEnum tags)) (l : List (String × Nat)) : Prop :=
  ∀ v s, c.ser v = .str s ↔ (s, v.tag) ∈ l

theorem lookup_of_mem_zip [BEq α] [LawfulBEq α] : ∀ {as : List α} {bs : List β}, as.Nodup → ∀ {a b}, (a, b) ∈ as.zip bs → (as.zip bs).lookup a = some b
  | a' :: as, b' :: bs, ha, a, b, hm => by
    rw [List.nodup_cons] at ha
    simp only [List.zip_cons_cons, List.lookup_cons, List.mem_cons] at hm ⊢
    by_cases h : a = a'
    · subst h
      rcases hm with hm | hm
      · cases hm; simp
      · exact absurd (List.of_mem_zip hm).1 ha.1
    · rw [show (a == a') = false by simpa using h]
      rcases hm with hm | hm
      · cases hm; exact absurd rfl h
      · exact lookup_of_mem_zip ha.2 hm

theorem mem_zip_swap : ∀ {as : List α} {bs : List β} {a b}, (a, b) ∈ as.zip bs ↔ (b, a) ∈ bs.zip as
  | [], bs, a, b => by simp
  | _ :: _, [], a, b => by simp
  | x :: as, y :: bs, a, b => by
    simp only [List.zip_cons_cons, List.mem_cons, Prod.mk.injEq, mem_zip_swap (as := as) (bs := bs)]
    rw [and_comm]

theorem JNumbers.of {names : List String} {tags : List Nat} {l : List (String × Nat)} (h1 : names.Nodup) (h2 : tags.Nodup)
    (h3 : tags.length = names.length) (hl : names.zip tags = l) : JNumbers (JCodec.enumNames names tags) l := by
  intro v s
  obtain ⟨s', e1, _⟩ := lookup_zip h2 h1 h3 v.mem
  simp only [JCodec.enumNames, e1, Option.getD_some, J.str.injEq]
  rw [← hl, mem_zip_swap]
  constructor
  · rintro rfl
    exact mem_of_lookup e1
  · intro h
    have := lookup_of_mem_zip h2 h
    rw [e1] at this
    exact Option.some.inj this

theorem HasShape.ofNumbers {names : List String} {tags : List Nat} {l : List (String × Nat)} (h1 : names.Nodup) (h2 : tags.Nodup)
    (h3 : names.length = tags.length) (hl : names.zip tags = l) :
    HasShape (JCodec.enumNames names tags) (.names (l.map (·.1))) none := by
  have : l.map (·.1) = names := by rw [← hl]; exact List.map_fst_zip (by omega)
  rw [this]
  exact HasShape.enumNames h1 h2 h3

end Verif
