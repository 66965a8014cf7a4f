import Verif.Json.Core
import Verif.Json.Spec
import Verif.Data.TextLaws
import Verif.Lib.Laws
/-!
# Laws of the JSON model
-/

namespace Verif

/-- What is read back. -/
def JSpec.back (s : JSpec α) (v : α) : Option α := bif s.fin v then some (s.norm v) else none

/-- A codec keeps what the specification says. -/
structure JLaw (c : JCodec α) (s : JSpec α) : Prop where
  null : ∀ v, c.ser v = .null ↔ s.isNull v = true
  back : ∀ v, c.de (c.ser v) = s.back v
  same : ∀ v, s.fin v = true → c.ser (s.norm v) = c.ser v

/-- The same for fields. -/
structure JRecLaw (r : JRec α) (s : JSpec α) : Prop where
  length : ∀ v, (r.ser v).length = r.names.length
  back : ∀ v get, (∀ e ∈ r.names.zip (r.ser v), get e.1 = some e.2) → r.de get = s.back v
  seq : ∀ v js, r.deSeq (r.ser v ++ js) = (s.back v).map (fun x => (x, js))
  same : ∀ v, s.fin v = true → r.ser (s.norm v) = r.ser v

theorem JLaw.boolean : JLaw JCodec.boolean .plain := ⟨by simp [JCodec.boolean, JSpec.plain], fun _ => rfl, fun _ _ => rfl⟩

theorem integer_law {lo hi : Int} {f : α → Int} {g : Int → α} (h : ∀ x, lo ≤ f x ∧ f x ≤ hi ∧ g (f x) = x) :
    JLaw (JCodec.integer lo hi f g) .plain where
  null v := by simp [JCodec.integer, JSpec.plain]
  back v := by
    obtain ⟨h1, h2, h3⟩ := h v
    simp only [JCodec.integer, if_pos (And.intro h1 h2), h3]
    rfl
  same _ _ := rfl

theorem JLaw.u8 : JLaw JCodec.u8 .plain := integer_law (fun x => ⟨by omega, by have := x.toNat_lt; omega, by simp⟩)
theorem JLaw.u16 : JLaw JCodec.u16 .plain := integer_law (fun x => ⟨by omega, by have := x.toNat_lt; omega, by simp⟩)
theorem JLaw.u32 : JLaw JCodec.u32 .plain := integer_law (fun x => ⟨by omega, by have := x.toNat_lt; omega, by simp⟩)
theorem JLaw.u64 : JLaw JCodec.u64 .plain := integer_law (fun x => ⟨by omega, by have := x.toNat_lt; omega, by simp⟩)
theorem JLaw.i16 : JLaw JCodec.i16 .plain :=
  integer_law (fun x => ⟨Int16.le_toInt x, by have := Int16.toInt_lt x; omega, by simp⟩)
theorem JLaw.i32 : JLaw JCodec.i32 .plain :=
  integer_law (fun x => ⟨Int32.le_toInt x, by have := Int32.toInt_lt x; omega, by simp⟩)

theorem special_iff (x : F32) : ((Ieee.ofBits x).isNan || (Ieee.ofBits x).isInf) = true ↔
    x.toNat / 2 ^ 23 % 256 = 255 := by
  have hx : x.toNat < 2 ^ 32 := x.toNat_lt
  have e : Ieee.single.inf = 255 * 2 ^ 23 := by decide
  simp only [Ieee.ofBits, Ieee.Fl.isNan, Ieee.Fl.isInf, e, Bool.or_eq_true, decide_eq_true_eq]
  omega

theorem JLaw.f32 : JLaw JCodec.f32 .float where
  null v := by
    simp only [JCodec.f32, JSpec.float, decide_eq_true_eq]
    rw [← special_iff]
    split <;> simp_all
  back v := by
    have := special_iff v
    simp only [JCodec.f32, JSpec.float, JSpec.back, decide_eq_true_eq]
    by_cases h : v.toNat / 2 ^ 23 % 256 = 255
    · simp [this.mpr h, h]
    · simp [h, mt this.mp h]
  same _ _ := rfl

theorem JLaw.string : JLaw JCodec.string .plain := ⟨by simp [JCodec.string, JSpec.plain], fun _ => rfl, fun _ _ => rfl⟩

theorem takeWhile_noNull {b : Bytes} (h : (0 : UInt8) ∉ b) : b.takeWhile (· ≠ 0) = b := by
  have := takeWhile_append_pos (p := fun x : UInt8 => decide (x ≠ 0)) (l₁ := b) (l₂ := []) (fun x hx => by
    simp only [ne_eq, decide_eq_true_eq]
    rintro rfl
    exact h hx)
  simpa using this

theorem JLaw.cstr : JLaw JCodec.cstr .text where
  null v := by simp [JCodec.cstr, JSpec.text]
  back v := by
    have e : CStr.fromBytes v.bytes = v := by
      obtain ⟨b, hb⟩ := v
      simp only [CStr.fromBytes, takeWhile_noNull hb]
    simp only [JCodec.cstr, e, JCodec.deTextBytes, JSpec.back, JSpec.text, if_true]
    cases h : v.toStr with
    | none =>
      have h' : fromUtf8 v.bytes = none := h
      rw [h']
      rfl
    | some s =>
      have h' : fromUtf8 v.bytes = some s := h
      have hb := textBytes_of_fromUtf8 h'
      rw [h']
      obtain ⟨b, hb'⟩ := v
      simp only [Option.getD_some, Option.isSome_some, if_true]
      subst hb
      rw [dif_pos hb']
      rfl
  same v _ := by
    simp only [JSpec.text]
    split
    · rfl
    · rename_i h
      have e : CStr.fromBytes v.bytes = v := by
        obtain ⟨b, hb⟩ := v
        simp only [CStr.fromBytes, takeWhile_noNull hb]
      have h' : v.toStr = none := by
        cases h'' : fromUtf8 v.bytes with
        | none => exact h''
        | some s => rw [h''] at h; exact absurd rfl h
      have e0 : (CStr.fromBytes []).toStr = some "" := by decide
      simp only [JCodec.cstr, e, h', e0, Option.getD_none, Option.getD_some]

theorem hexValue_digit : ∀ n, n < 16 → JCodec.hexValue (JCodec.hexDigit n) = some n := by decide

theorem hexDecode_encode : ∀ bs, JCodec.hexDecode (JCodec.hexEncode bs) = some bs
  | [] => rfl
  | b :: bs => by
    have hb := b.toNat_lt
    rw [JCodec.hexEncode, JCodec.hexDecode, hexValue_digit _ (by omega), hexValue_digit _ (by omega), hexDecode_encode bs]
    simp only
    rw [show 16 * (b.toNat / 16) + b.toNat % 16 = b.toNat by omega, UInt8.ofNat_toNat]

theorem JLaw.hex : JLaw JCodec.hex .plain where
  null v := by simp [JCodec.hex, JSpec.plain]
  back v := by
    simp only [JCodec.hex, String.toList_ofList, hexDecode_encode]
    rfl
  same _ _ := rfl

theorem JLaw.unit : JLaw JCodec.unit .unit := ⟨by simp [JCodec.unit, JSpec.unit], fun _ => rfl, fun _ _ => rfl⟩

theorem deList_back {c : JCodec α} {s : JSpec α} (h : JLaw c s) : ∀ l, JCodec.deList c (l.map c.ser) = (JSpec.list s).back l
  | [] => rfl
  | v :: l => by
    have ih := deList_back h l
    rw [List.map_cons, JCodec.deList, h.back, ih]
    simp only [JSpec.back, JSpec.list, List.all_cons, List.map_cons]
    cases s.fin v <;> cases l.all s.fin <;> rfl

theorem map_same {c : JCodec α} {s : JSpec α} (h : JLaw c s) {l : List α} (hl : l.all s.fin = true) :
    (l.map s.norm).map c.ser = l.map c.ser := by
  rw [List.map_map]
  exact List.map_congr_left (fun v hv => h.same v (List.all_eq_true.mp hl v hv))

theorem JLaw.vec {c : JCodec α} {s : JSpec α} (h : JLaw c s) : JLaw (JCodec.vec c) (.list s) :=
  ⟨by simp [JCodec.vec, JSpec.list], deList_back h, fun l hl => by
    simp only [JCodec.vec, JSpec.list, map_same h hl]⟩

theorem JLaw.array {c : JCodec α} {s : JSpec α} (h : JLaw c s) : JLaw (JCodec.array c) (.list s) := h.vec

theorem JLaw.arrayN {c : JCodec α} {s : JSpec α} (h : JLaw c s) : JLaw (JCodec.arrayN n c) (.vector s) where
  null v := by simp [JCodec.arrayN, JSpec.vector]
  back v := by
    simp only [JCodec.arrayN, deList_back h, JSpec.back, JSpec.list, JSpec.vector]
    cases hf : v.toList.all s.fin with
    | false => rfl
    | true =>
      change dite _ _ _ = _
      rw [dif_pos (by simp)]
      congr 1
      apply Vector.toArray_inj.mp
      rw [← Array.toList_inj]
      simp [Vector.toList]
  same v hv := by
    have e : (v.map s.norm).toList = v.toList.map s.norm := by simp [Vector.toList]
    simp only [JCodec.arrayN, JSpec.vector, e, map_same h hv]

theorem JLaw.option {c : JCodec α} {s : JSpec α} (h : JLaw c s) : JLaw (JCodec.option c) (.pointer s) where
  null v := by
    cases v with
    | none => simp [JCodec.option, JSpec.pointer]
    | some v => simp [JCodec.option, JSpec.pointer, h.null]
  back v := by
    cases v with
    | none => rfl
    | some v =>
      have h1 := h.null v
      have h2 := h.back v
      simp only [JCodec.option, JSpec.pointer, JSpec.back]
      cases hn : s.isNull v with
      | true =>
        rw [h1.mpr hn]
        rfl
      | false =>
        have : c.ser v ≠ .null := fun hc => by rw [h1.mp hc] at hn; cases hn
        have e : ∀ j, j ≠ J.null → (JCodec.option c).de j = match c.de j with | some v => some (some v) | none => none := by
          intro j hj
          cases j <;> first | exact absurd rfl hj | rfl
        refine (e _ this).trans ?_
        rw [h2]
        simp only [JSpec.back, Bool.false_or]
        cases s.fin v <;> rfl
  same v hv := by
    cases v with
    | none => rfl
    | some v =>
      simp only [JSpec.pointer] at hv ⊢
      cases hn : s.isNull v with
      | true => exact ((h.null v).mpr hn).symm
      | false =>
        rw [hn] at hv
        exact h.same v hv

theorem JLaw.newtype {c : JCodec α} {s : JSpec α} (h : JLaw c s) : JLaw (JCodec.newtype c) s :=
  ⟨h.null, h.back, h.same⟩
theorem JLaw.relPtr {c : JCodec α} {s : JSpec α} (h : JLaw c s) : JLaw (JCodec.relPtr c) (.pointer s) := h.option.newtype
theorem JLaw.ptr {c : JCodec α} {s : JSpec α} (h : JLaw c s) : JLaw (JCodec.ptr c) (.pointer s) := h.option
theorem JLaw.ssbhString : JLaw JCodec.ssbhString (.pointer .text) := JLaw.cstr.newtype.relPtr.newtype

theorem mem_of_lookup [BEq α] [LawfulBEq α] : ∀ {l : List (α × β)} {a b}, l.lookup a = some b → (a, b) ∈ l
  | (a', b') :: l, a, b, h => by
    rw [List.lookup_cons] at h
    by_cases e : a = a'
    · subst e
      simp only [beq_self_eq_true, Option.some.injEq] at h
      simp [h]
    · rw [show (a == a') = false by simpa using e] at h
      exact List.mem_cons_of_mem _ (mem_of_lookup h)

theorem lookup_zip [BEq α] [LawfulBEq α] [BEq β] [LawfulBEq β] : ∀ {as : List α} {bs : List β}, as.Nodup → bs.Nodup → as.length = bs.length → ∀ {a},
    a ∈ as → ∃ b, (as.zip bs).lookup a = some b ∧ (bs.zip as).lookup b = some a
  | a' :: as, b' :: bs, ha, hb, hl, a, hm => by
    rw [List.nodup_cons] at ha hb
    simp only [List.zip_cons_cons, List.lookup_cons]
    by_cases h : a = a'
    · subst h
      exact ⟨b', by simp, by simp⟩
    · have hm' : a ∈ as := by simpa [h] using hm
      obtain ⟨b, h1, h2⟩ := lookup_zip ha.2 hb.2 (by simpa using hl) hm'
      refine ⟨b, ?_, ?_⟩
      · rw [show (a == a') = false by simpa using h]
        exact h1
      · have : b ≠ b' := by
          rintro rfl
          apply hb.1
          exact (List.of_mem_zip (mem_of_lookup h1)).2
        rw [show (b == b') = false by simpa using this]
        exact h2

/-- A short code of a name. -/
def nameCode (s : String) : Nat := s.toList.foldl (fun a c => (a * 31 + c.toNat) % 2 ^ 32) 0

theorem nodup_of_map {f : α → β} : ∀ {l : List α}, (l.map f).Nodup → l.Nodup
  | [], _ => List.nodup_nil
  | a :: l, h => by
    rw [List.map_cons, List.nodup_cons] at h
    exact List.nodup_cons.mpr ⟨fun ha => h.1 (List.mem_map_of_mem ha), nodup_of_map h.2⟩

theorem JLaw.enumNames {names : List String} {tags : List Nat} (h1 : names.Nodup) (h2 : tags.Nodup)
    (h3 : tags.length = names.length) : JLaw (JCodec.enumNames names tags) .plain where
  null v := by simp [JCodec.enumNames, JSpec.plain]
  back v := by
    obtain ⟨s, e1, e2⟩ := lookup_zip h2 h1 h3 v.mem
    simp only [JCodec.enumNames, e1, Option.getD_some, e2, Option.bind_some]
    simp only [ReprEnum.ofNat, dif_pos v.mem]
    rfl
  same _ _ := rfl

/-! ## Structs -/

theorem JRecLaw.field {c : JCodec α} {s : JSpec α} (n : String) (h : JLaw c s) : JRecLaw (.field n c) s where
  length _ := rfl
  back v get hg := by
    have := hg (n, c.ser v) (by simp [JRec.field])
    simp only at this
    simp only [JRec.field, this, h.back]
  seq v js := by
    simp only [JRec.field, List.cons_append, List.nil_append, h.back]
    cases s.back v <;> rfl
  same v hv := by simp only [JRec.field, h.same v hv]

theorem JRecLaw.fieldOr {c : JCodec α} {s : JSpec α} (n : String) (h : JLaw c s) {d : α} : JRecLaw (.fieldOr n c d) s where
  length _ := rfl
  back v get hg := by
    have := hg (n, c.ser v) (by simp [JRec.fieldOr])
    simp only at this
    simp only [JRec.fieldOr, this, h.back]
  seq v js := by
    simp only [JRec.fieldOr, List.cons_append, List.nil_append, h.back]
    cases s.back v <;> rfl
  same v hv := by simp only [JRec.fieldOr, h.same v hv]

theorem back_both (s : JSpec α) (t : JSpec β) (v : α × β) : (JSpec.both s t).back v =
    match s.back v.1, t.back v.2 with
    | some x, some y => some (x, y)
    | _, _ => none := by
  simp only [JSpec.back, JSpec.both]
  cases s.fin v.1 <;> cases t.fin v.2 <;> rfl

theorem JRecLaw.and {r : JRec α} {q : JRec β} {s : JSpec α} {t : JSpec β} (h1 : JRecLaw r s) (h2 : JRecLaw q t) :
    JRecLaw (r.and q) (.both s t) where
  length v := by simp [JRec.and, h1.length, h2.length]
  back v get hg := by
    have e : (r.and q).names.zip ((r.and q).ser v) = r.names.zip (r.ser v.1) ++ q.names.zip (q.ser v.2) :=
      List.zip_append (h1.length _).symm
    rw [e] at hg
    rw [back_both, JRec.and]
    simp only
    rw [h1.back v.1 get (fun e he => hg e (List.mem_append_left _ he)),
      h2.back v.2 get (fun e he => hg e (List.mem_append_right _ he))]
    rfl
  seq v js := by
    rw [back_both, JRec.and]
    simp only [List.append_assoc, h1.seq]
    cases s.back v.1 with
    | none => rfl
    | some x =>
      simp only [Option.map_some, h2.seq]
      cases t.back v.2 <;> rfl
  same v hv := by
    simp only [JSpec.both, Bool.and_eq_true] at hv
    simp only [JRec.and, JSpec.both, h1.same _ hv.1, h2.same _ hv.2]

theorem lookup_of_mem : ∀ {l : List (String × J)}, (l.map (·.1)).Nodup → ∀ e ∈ l, l.lookup e.1 = some e.2
  | x :: l, h, e, he => by
    rw [List.map_cons, List.nodup_cons] at h
    rw [List.lookup_cons]
    rcases List.mem_cons.mp he with rfl | he
    · simp
    · have : e.1 ≠ x.1 := by
        intro h'
        exact h.1 (h' ▸ List.mem_map_of_mem he)
      rw [show (e.1 == x.1) = false by simpa using this]
      exact lookup_of_mem h.2 e he

theorem duplicate_false {names : List String} {l : List (String × J)} (h : (l.map (·.1)).Nodup) :
    JCodec.duplicate names l = false := by
  rw [JCodec.duplicate, List.any_eq_false]
  intro n _
  simp only [decide_eq_true_eq, Nat.not_lt]
  induction l with
  | nil => simp
  | cons x l ih =>
    rw [List.map_cons, List.nodup_cons] at h
    rw [List.filter_cons]
    split
    · rename_i hx
      have hx : x.1 = n := by simpa using hx
      have : l.filter (fun e => e.1 == n) = [] := by
        rw [List.filter_eq_nil_iff]
        intro e he hn
        have hn : e.1 = n := by simpa using hn
        exact h.1 (hx ▸ hn ▸ List.mem_map_of_mem he)
      simp [this]
    · exact ih h.2

theorem JLaw.struct {r : JRec β} {s : JSpec β} (h : JRecLaw r s) (hn : r.names.Nodup) {f : α → β} {g : β → α}
    (hfg : ∀ x, f (g x) = x) : JLaw (JCodec.struct r f g) (.fields s f g) where
  null v := by simp [JCodec.struct, JSpec.fields]
  back v := by
    have e : ((r.names.zip (r.ser (f v))).map (·.1)) = r.names :=
      List.map_fst_zip (Nat.le_of_eq (h.length _).symm)
    simp only [JCodec.struct]
    rw [duplicate_false (by rw [e]; exact hn), if_neg (by simp),
      h.back _ _ (lookup_of_mem (by rw [e]; exact hn))]
    simp only [JSpec.back, JSpec.fields]
    cases s.fin (f v) <;> rfl
  same v hv := by simp only [JCodec.struct, JSpec.fields, hfg, h.same _ hv]

/-- The values of the fields in an array are read like the struct. -/
theorem struct_seq {r : JRec β} {s : JSpec β} (h : JRecLaw r s) (f : α → β) (g : β → α) (v : α) :
    (JCodec.struct r f g).de (.arr (r.ser (f v))) = (JSpec.fields s f g).back v := by
  have := h.seq (f v) []
  rw [List.append_nil] at this
  simp only [JCodec.struct, this]
  simp only [JSpec.back, JSpec.fields]
  cases s.fin (f v) <;> rfl

/-- One of the variants of an enum. -/
theorem back_variant {o : Option α} {s : JSpec α} {t : JSpec β} {v : α} {f : α → β} (h : o = s.back v)
    (e1 : t.fin (f v) = s.fin v) (e2 : t.norm (f v) = f (s.norm v)) : o.map f = t.back (f v) := by
  rw [h, JSpec.back, JSpec.back, e1, e2]
  cases s.fin v <;> rfl

/-- Another specification which is the same. -/
theorem JLaw.congr {c : JCodec α} {s t : JSpec α} (h : JLaw c s) (e1 : ∀ v, s.isNull v = t.isNull v)
    (e2 : ∀ v, s.fin v = t.fin v) (e3 : ∀ v, s.norm v = t.norm v) : JLaw c t :=
  ⟨fun v => by rw [h.null, e1], fun v => by rw [h.back, JSpec.back, JSpec.back, e2, e3],
    fun v hv => by rw [← e3, h.same v (by rw [e2, hv])]⟩

/-- A value which is read back unchanged or not at all. -/
theorem JLaw.exact {c : JCodec α} {s : JSpec α} (h : JLaw c s) {fin : α → Bool} (e1 : ∀ v, s.isNull v = false)
    (e2 : ∀ v, s.fin v = fin v) (e3 : ∀ v, s.norm v = v) : JLaw c (.exact fin) := h.congr e1 e2 e3

theorem JLaw.optional {c : JCodec α} {fin : α → Bool} (h : JLaw c (.exact fin)) : JLaw (JCodec.option c) (.optional fin) := by
  refine h.option.congr (fun o => ?_) (fun o => ?_) (fun o => ?_) <;> cases o <;> rfl

theorem JLaw.usize : JLaw JCodec.usize (.exact (fun n => decide (n < 2 ^ 64))) where
  null v := by simp [JCodec.usize, JCodec.integer, JSpec.exact]
  back v := by
    simp only [JCodec.usize, JCodec.integer, JSpec.back, JSpec.exact]
    by_cases h : v < 2 ^ 64
    · rw [if_pos (by omega)]
      simp [h]
    · rw [if_neg (by omega)]
      simp [h]
  same _ _ := rfl

theorem find_of_lookup [DecidableEq α] : ∀ {l : List (String × α)}, (l.map (·.1)).Nodup → ∀ {v : α}, v ∈ l.map (·.2) →
    ∃ s, l.find? (fun e => e.2 = v) = some (s, v) ∧ l.lookup s = some v
  | (s, w) :: l, h, v, hv => by
    rw [List.map_cons, List.nodup_cons] at h
    by_cases hw : w = v
    · subst hw
      exact ⟨s, by simp, by simp [List.lookup_cons]⟩
    · have hv' : v ∈ l.map (·.2) := by
        rw [List.map_cons, List.mem_cons] at hv
        exact hv.resolve_left (fun e => hw e.symm)
      obtain ⟨t, h1, h2⟩ := find_of_lookup h.2 hv'
      refine ⟨t, by simp [hw, h1], ?_⟩
      have : t ≠ s := by
        rintro rfl
        exact h.1 (List.mem_map.mpr ⟨_, mem_of_lookup h2, rfl⟩)
      rw [List.lookup_cons, show (t == s) = false by simpa using this]
      exact h2

theorem JLaw.variants [DecidableEq α] {l : List (String × α)} (h1 : (l.map (·.1)).Nodup) (h2 : ∀ v, v ∈ l.map (·.2)) :
    JLaw (JCodec.variants l) .plain where
  null v := by simp [JCodec.variants, JSpec.plain]
  back v := by
    obtain ⟨s, e1, e2⟩ := find_of_lookup h1 (h2 v)
    simp only [JCodec.variants, e1, Option.map_some, Option.getD_some, e2]
    rfl
  same _ _ := rfl

theorem JLaw.via {c : JCodec β} {fin : β → Bool} (h : JLaw c (.exact fin)) {f : α → β} {g : β → α} (hgf : ∀ x, g (f x) = x) :
    JLaw (JCodec.via c f g) (.exact (fun v => fin (f v))) where
  null v := h.null (f v)
  back v := by
    have := h.back (f v)
    simp only [JCodec.via, this, JSpec.back, JSpec.exact]
    cases fin (f v) with
    | false => rfl
    | true => simp [hgf]
  same _ _ := rfl

theorem JLaw.orNull {c : JCodec α} {fin : α → Bool} (h : JLaw c (.exact fin)) (d : α) :
    JLaw (JCodec.orNull c d) (.exact fin) where
  null v := h.null v
  back v := by
    have := h.option.back (some v)
    simp only [JCodec.orNull]
    rw [show c.ser v = (JCodec.option c).ser (some v) from rfl, this]
    simp only [JSpec.back, JSpec.pointer, JSpec.exact]
    cases fin v <;> rfl
  same _ _ := rfl

theorem bitfield2_bytes (v : Vector UInt8 2) :
    (⟨(leBytes 2 (UInt16.ofNat (fromLe v.toList)).toNat).toArray, by simp [leBytes]⟩ : Vector UInt8 2) = v := by
  have h := fromLe_lt v.toList
  have hl : v.toList.length = 2 := by simp
  rw [hl] at h
  have e : (UInt16.ofNat (fromLe v.toList)).toNat = fromLe v.toList := by
    rw [UInt16.toNat_ofNat']; exact Nat.mod_eq_of_lt h
  apply Vector.toArray_inj.mp
  have := leBytes_fromLe v.toList
  rw [hl] at this
  simp only [e, this]
  simp [Vector.toList]

theorem bitfield4_bytes (v : Vector UInt8 4) :
    (⟨(leBytes 4 (UInt32.ofNat (fromLe v.toList)).toNat).toArray, by simp [leBytes]⟩ : Vector UInt8 4) = v := by
  have h := fromLe_lt v.toList
  have hl : v.toList.length = 4 := by simp
  rw [hl] at h
  have e : (UInt32.ofNat (fromLe v.toList)).toNat = fromLe v.toList := by
    rw [UInt32.toNat_ofNat']; exact Nat.mod_eq_of_lt h
  apply Vector.toArray_inj.mp
  have := leBytes_fromLe v.toList
  rw [hl] at this
  simp only [e, this]
  simp [Vector.toList]

theorem JLaw.bitfield16 : JLaw JCodec.bitfield16 .plain := by
  refine (JLaw.struct (JRecLaw.field "bytes" JLaw.u8.arrayN) (by decide) (bitfield2_bytes)).congr
    (fun _ => rfl) ?_ ?_
  · intro v
    simp [JSpec.fields, JSpec.vector, JSpec.plain]
  · intro v
    have h : fromLe (leBytes 2 v.toNat) = v.toNat := by
      rw [fromLe_leBytes]; exact Nat.mod_eq_of_lt v.toNat_lt
    simp only [JSpec.fields, JSpec.vector, JSpec.plain, id]
    simp [h]

theorem JLaw.bitfield32 : JLaw JCodec.bitfield32 .plain := by
  refine (JLaw.struct (JRecLaw.field "bytes" JLaw.u8.arrayN) (by decide) (bitfield4_bytes)).congr
    (fun _ => rfl) ?_ ?_
  · intro v
    simp [JSpec.fields, JSpec.vector, JSpec.plain]
  · intro v
    have h : fromLe (leBytes 4 v.toNat) = v.toNat := by
      rw [fromLe_leBytes]; exact Nat.mod_eq_of_lt v.toNat_lt
    simp only [JSpec.fields, JSpec.vector, JSpec.plain, id]
    simp [h]

theorem JLaw.enum64 {c : JCodec α} {s : JSpec α} (h : JLaw c s) : JLaw (JCodec.enum64 c) (.tagged s) :=
  JLaw.struct (JRecLaw.field "data" h.relPtr) (show ["data"].Nodup by decide) (fun _ => rfl)

end Verif
