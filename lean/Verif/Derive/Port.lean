import Verif.Derive.Laws
import Verif.Derive.Platform
import Verif.Derive.FormatsSame
/-!
# Reading files of other platforms

The reader of a codec with the writer that is derived on another platform satisfies the laws of `Verif.Lib.Classes`.
-/

namespace Verif.Derive

/-- The writer on the platform `P` and the reader, which is the same on all platforms. -/
def on (c : Codec α) [h : Derives c t] (P : Platform) : Codec α :=
  ⟨fun v => (t.codec P).size (h.val v), t.align P, fun v w => (t.codec P).write (h.val v) w, c.read⟩

/-- The same for fields. -/
def onF (c : Codec α) [h : DerivesF c pad fs] (P : Platform) : Codec α :=
  ⟨fun v => (fs.codec P).size (h.val v) + pad.getD 0, 1, fun v w => andAfter pad none ((fs.codec P).write (h.val v) w), c.read⟩

/-- The same for the data of a `SsbhEnum64`. -/
def onT (c : Tagged α) [h : DerivesT c tags t] (P : Platform) : Tagged α :=
  { c with align := t.align P, write := fun v w => (t.codec P).write (h.val v) w }

/-- The law of a self contained value, whatever its alignment. -/
structure LawN (c : Codec α) : Prop where
  lawful : LawfulC c
  fixed : ∃ k, ∀ v, c.size v = k
  total : OnlyOverflow c

theorem LawN.of {c : Codec α} (h : LawC c) : LawN c := ⟨h.lawful, h.fixed, h.total⟩
theorem LawN.field {c : Codec α} (h : LawN c) : LawF c := ⟨h.lawful.field true, h.fixed, h.total⟩

theorem LawN.congr {c d : Codec α} (h : LawN d) (hs : ∀ v, c.size v = d.size v) (hw : ∀ v w, c.write v w = d.write v w)
    (hr : ∀ b p, c.read b p = d.read b p) : LawN c := by
  obtain ⟨s, a, w, r⟩ := c
  obtain ⟨s', a', w', r'⟩ := d
  obtain rfl : s = s' := funext hs
  obtain rfl : w = w' := funext fun v => funext (hw v)
  obtain rfl : r = r' := funext fun v => funext (hr v)
  exact ⟨h.lawful, h.fixed, h.total⟩

theorem lawF_congr {c d : Codec α} (h : LawF d) (hs : ∀ v, c.size v = d.size v) (hw : ∀ v w, c.write v w = d.write v w)
    (hr : ∀ b p, c.read b p = d.read b p) : LawF c := by
  obtain ⟨s, a, w, r⟩ := c
  obtain ⟨s', a', w', r'⟩ := d
  obtain rfl : s = s' := funext hs
  obtain rfl : w = w' := funext fun v => funext (hw v)
  obtain rfl : r = r' := funext fun v => funext (hr v)
  exact ⟨h.lawful, h.fixed, h.total⟩

theorem lawW_congr {c d : Codec α} (h : LawW d) (hs : ∀ v, c.size v = d.size v) (hw : ∀ v w, c.write v w = d.write v w)
    (hr : ∀ b p, c.read b p = d.read b p) : LawW c := by
  obtain ⟨s, a, w, r⟩ := c
  obtain ⟨s', a', w', r'⟩ := d
  obtain rfl : s = s' := funext hs
  obtain rfl : w = w' := funext fun v => funext (hw v)
  obtain rfl : r = r' := funext fun v => funext (hr v)
  exact ⟨h.lawful, h.total⟩

class Port (c : Codec α) {t} [Derives c t] : Prop where
  law : ∀ P : Platform, P.Ok → LawN (on c P)

class PortF (c : Codec α) {pad fs} [DerivesF c pad fs] : Prop where
  law : ∀ P : Platform, P.Ok → LawF (onF c P)

class PortW (c : Codec α) {pad fs} [DerivesF c pad fs] : Prop where
  law : ∀ P : Platform, P.Ok → LawW (onF c P)

class PortT (c : Tagged α) {tags t} [DerivesT c tags t] : Prop where
  law : ∀ P : Platform, P.Ok → LawT (onT c P)

/-- Types without pointers to data of another alignment. -/
theorem Port.plain {c : Codec α} [h : Derives c t] (hc : LawC c) (ha : ∀ P, t.agree P p64 = true) : Port c where
  law P _ := (LawN.of hc).congr (fun v => by
      show (t.codec P).size _ = _
      rw [(t.alike (ha P)).1, h.size]) (fun v w => by
      show (t.codec P).write _ _ = _
      rw [(t.alike (ha P)).2, h.write]) (fun _ _ => rfl)

theorem PortW.plain {c : Codec α} [h : DerivesF c pad fs] (hc : LawW c) (ha : ∀ P, fs.agree P p64 = true) : PortW c where
  law P _ := lawW_congr hc (fun v => by
      show (fs.codec P).size _ + _ = _
      rw [(fs.alike (ha P)).1, h.size]) (fun v w => by
      show andAfter pad none ((fs.codec P).write _ _) = _
      rw [(fs.alike (ha P)).2, h.write]) (fun _ _ => rfl)

instance : Port Verif.u8 := .plain inferInstance fun _ => rfl
instance : Port Verif.u16 := .plain inferInstance fun _ => rfl
instance : Port Verif.u32 := .plain inferInstance fun _ => rfl
instance : Port Verif.f32 := .plain inferInstance fun _ => rfl
instance : Port Verif.u64 := .plain inferInstance fun _ => rfl
instance : Port Verif.i16 := .plain inferInstance fun _ => rfl
instance : Port Verif.i32 := .plain inferInstance fun _ => rfl
instance : Port unitC := .plain inferInstance fun _ => rfl
instance : Port bitfield32 := .plain inferInstance fun _ => rfl
instance : Port ssbhString := .plain inferInstance fun _ => rfl
instance : Port ssbhString8 := .plain inferInstance fun _ => rfl

theorem readElems_on {c : Codec α} [Derives c t] (P : Platform) {b : Bytes} : ∀ n p, readElems (on c P) n b p = readElems c n b p
  | 0, _ => rfl
  | n + 1, p => by
    simp only [readElems, readElems_on P n]
    rfl

theorem array_map {c : Codec α} {d : Codec β} {f : α → β} (h1 : ∀ v, c.size v = d.size (f v))
    (h2 : ∀ v w, c.write v w = d.write (f v) w) (vs : List α) (w : W) :
    (array c).write vs w = (array d).write (vs.map f) w := by
  simp only [array, List.length_map, writeSlice_map h1 h2]

instance {c : Codec α} [h : Derives c t] [hp : Port c] : Port (array c) where
  law P hP := by
    have := (hp.law P hP).field
    have hl : LawC (array (on c P)) := inferInstance
    refine (LawN.of hl).congr (fun _ => rfl) (fun v w => ?_) (fun b p => ?_)
    · exact (array_map (c := on c P) (d := t.codec P) (fun _ => rfl) (fun _ _ => rfl) v w).symm
    · show (array c).read b p = _
      have : ∀ n p, readElems (on c P) n b p = readElems c n b p := readElems_on P
      simp only [array, this]

theorem relPtr_law {c : Codec α} [h : DerivesP c t] (hp : Port c) (ht : t.ok) : Port (relPtr c) where
  law P hP := by
    have : LawP (on c P) := ⟨⟨_, _, (hp.law P hP).lawful⟩, (hp.law P hP).total, t.align_pos hP ht⟩
    have hl : LawC (relPtr (on c P)) := inferInstance
    refine (LawN.of hl).congr (fun _ => rfl) (fun v w => ?_) (fun b p => rfl)
    exact (relPtr_map (c := on c P) (d := t.codec P) (fun _ _ => rfl) (t.codec_align P).symm v w).symm

instance {c : Tagged α} [h : DerivesT c tags t] [hp : PortT c] : Port (enum64 c) where
  law P hP := by
    have := hp.law P hP
    have hl : LawC (enum64 (onT c P)) := inferInstance
    refine (LawN.of hl).congr (fun _ => rfl) (fun v w => ?_) (fun b p => rfl)
    have h1 := relPtr_map (c := (onT c P).codec 0) (d := t.codec P) (fun _ _ => rfl) (t.codec_align P).symm v (w.bump 16)
    cases v with
    | none => rfl
    | some v =>
      show (match (relPtr (t.codec P)).write (some (h.val v)) (w.bump 16) with
        | .error e => (.error e : Except WErr W)
        | .ok w1 => putU64 (tags.getD (t.index (h.val v)) 0).toNat w1) =
        (match (relPtr ((onT c P).codec 0)).write (some v) (w.bump 16) with
        | .error e => (.error e : Except WErr W)
        | .ok w1 => putU64 (c.tag v) w1)
      rw [h1, h.tag]
      rfl

instance (priority := low) {c : Codec α} [h : Derives c t] [hp : Port c] : PortF c where
  law P hP := lawF_congr (hp.law P hP).field (fun _ => rfl) (fun v w => by
    show andAfter none none (match andAfter none none ((t.codec P).write (h.val v) w) with
      | .error e => (.error e : Except WErr W)
      | .ok w1 => .ok w1) = (t.codec P).write (h.val v) w
    cases (t.codec P).write (h.val v) w <;> rfl) (fun _ _ => rfl)

instance {a : Codec α} {b : Codec β} [ha : Derives a t] [hb : DerivesF b pad fs] [pa : Port a] [pb : PortF b] :
    PortF (pair a b) where
  law P hP := by
    have := (pa.law P hP).field
    have := pb.law P hP
    have hl : LawF (pair (on a P) (onF b P)) := inferInstance
    refine lawF_congr hl (fun v => ?_) (fun v w => ?_) (fun _ _ => rfl)
    · show (t.codec P).size (ha.val v.1) + 0 + (fs.codec P).size (hb.val v.2) + pad.getD 0 =
        (t.codec P).size (ha.val v.1) + ((fs.codec P).size (hb.val v.2) + pad.getD 0)
      omega
    · show andAfter pad none (match andAfter none none ((t.codec P).write (ha.val v.1) w) with
        | .error e => (.error e : Except WErr W)
        | .ok w1 => (fs.codec P).write (hb.val v.2) w1) =
        (match (t.codec P).write (ha.val v.1) w with
        | .ok w1 => andAfter pad none ((fs.codec P).write (hb.val v.2) w1)
        | .error e => (.error e : Except WErr W))
      cases (t.codec P).write (ha.val v.1) w <;> rfl

instance {a : Codec α} {to : β → α} {fr} {hh} [ha : DerivesF a pad fs] [pa : PortF a] : PortF (iso a to fr hh) where
  law P hP := by
    have := pa.law P hP
    have hl : LawF (iso (onF a P) to fr hh) := inferInstance
    exact lawF_congr hl (fun _ => rfl) (fun _ _ => rfl) (fun _ _ => rfl)

instance {a : Codec α} {n : Nat} [ha : DerivesF a none fs] [pa : PortF a] : PortF (padAfter n a) where
  law P hP := by
    have := pa.law P hP
    have hl : LawF (padAfter n (onF a P)) := inferInstance
    refine lawF_congr hl (fun _ => rfl) (fun v w => ?_) (fun _ _ => rfl)
    show andAfter (some n) none ((fs.codec P).write (ha.val v) w) = (match andAfter none none ((fs.codec P).write (ha.val v) w) with
      | .ok w1 => .ok (w1.put (List.replicate n 0))
      | .error e => (.error e : Except WErr W))
    cases (fs.codec P).write (ha.val v) w <;> rfl

instance (priority := low) {c : Codec α} [h : DerivesF c pad fs] [p : PortF c] : PortW c :=
  ⟨fun P hP => have := p.law P hP; inferInstance⟩

theorem structPort {al : Nat} {a : Codec α} [ha : DerivesF a pad fs] [pa : PortF a] :
    @Port _ (struct al a) _ structDerives :=
  @Port.mk _ _ _ structDerives fun P hP => by
    have := pa.law P hP
    have hl : LawC (struct 1 (onF a P)) := inferInstance
    refine (LawN.of hl).congr (fun _ => rfl) (fun v w => rfl) (fun _ _ => rfl)

/-! ## Enums and files -/

/-- A value of an enum is written by `c`. -/
structure On (P : Platform) (vs : Variants) (x : vs.Val) (c : Codec α) (v : α) : Prop where
  size : c.size v = (vs.codec P).size x
  write : ∀ w, c.write v w = (vs.codec P).write x (w.bump ((vs.codec P).size x))

theorem On.first {P al} {c : Codec α} [h : DerivesF c none fs] (vs : Variants) (v : α) :
    On P (.cons none none fs vs) (Variants.first (h.val v)) (struct al (onF c P)) v := ⟨rfl, fun _ => rfl⟩

theorem On.later {P p a fs vs} {x : vs.Val} {c : Codec α} {v : α} (h : On P vs x c v) :
    On P (.cons p a fs vs) (Variants.later x) c v := ⟨h.size, h.write⟩

theorem On.tagged {P vs} {x : vs.Val} {c : Codec α} {v : α} (h : On P vs x c v) (w : W) :
    ((Ty.enum {} vs).codec P).write x w = c.write v w := by
  rw [h.write]
  exact andAfter_none _

theorem On.law {P} {c : Tagged α} [h : DerivesT c tags (.enum {} vs)] {d : Codec β} [DerivesF d none fs] {f : β → α} {v : β}
    (hp : LawW (onF d P)) (ho : On P vs (h.val (f v)) (struct 8 (onF d P)) v)
    (hr : ∀ b p, c.read (c.tag (f v)) b p = mapRead f (d.read b p)) :
    (∃ wn rn, LawfulAt ((onT c P).codec ((onT c P).tag (f v))) false (f v) wn rn) ∧
    ∀ w e, (onT c P).write (f v) w = .error e → e = .overflow :=
  ⟨variant_law (al := 8) (a := onF d P) (fun w => ho.tagged w) hr,
   fun _ _ he => variant_total (al := 8) (a := onF d P) (fun w => ho.tagged w) he⟩

theorem portT {c : Tagged α} [h : DerivesT c tags t] [l : LawT c] (ht : t.ok)
    (hl : ∀ P : Platform, P.Ok → ∀ v, (∃ wn rn, LawfulAt ((onT c P).codec ((onT c P).tag v)) false v wn rn) ∧
      ∀ w e, (onT c P).write v w = .error e → e = .overflow) : PortT c where
  law P hP := ⟨⟨l.lawful.tag, t.align_pos hP ht, fun v => (hl P hP v).1⟩, fun v => (hl P hP v).2⟩

/-- A file type with the writer of the platform `P`, if its files have no padding at the end. -/
def fileOn (P : Platform) (α : Type) [s : SsbhType α] [h : DerivesFile α t] : Format α :=
  { s.format with size := fun v => (t.codec P).size (h.val v), write := fun v w => (t.codec P).write (h.val v) w }

theorem fileOn_bytes {P : Platform} [s : SsbhType α] [h : DerivesFile α t] {v : α} (ha : s.format.alignAfter v = 1) :
    (fileOn P α).toBytes v = Ty.file P s.format.magic (s.format.version v) t (h.val v) := by
  have ha' : (fileOn P α).alignAfter v = 1 := ha
  unfold Format.toBytes Format.writeFile Format.writeTo Format.writeBodyTo Ty.file
  simp only [ha', if_pos]
  have h1 : ∀ r : Except WErr W, (match (match r with
    | .error e => (.error e : Except WErr W)
    | .ok w => .ok w) with
    | .error e => (.error e : Except WErr Bytes)
    | .ok w => .ok w.buf) = match r with
    | .error e => (.error e : Except WErr Bytes)
    | .ok w => .ok w.buf := by intro r; cases r <;> rfl
  exact h1 _

theorem On.file {P : Platform} (hP : P.Ok) [s : SsbhType α] [h : DerivesFile α (.enum {} vs)] {c a : Codec β} (hc : c = struct 8 a)
    [DerivesF a none fs] [pa : PortW a] {f : β → α} {v : β} (ho : On P vs (h.val (f v)) (struct 8 (onF a P)) v)
    (hr : ∀ b p, s.format.read (s.format.version (f v)).1 (s.format.version (f v)).2 b p = mapRead f (c.read b p)) :
    (∃ rn, LawfulAt ((fileOn P α).codec (f v)) false (f v) ((fileOn P α).size (f v)) rn) ∧
    ∀ w e, (fileOn P α).write (f v) w = .error e → e = .overflow := by
  subst hc
  have := pa.law P hP
  refine ⟨format_variant_law (F := fileOn P α) (al := 8) (a := onF a P) (c := struct 8 (onF a P)) rfl (fun w => ho.tagged w) hr
    ho.size.symm, fun w e he => ?_⟩
  have h1 : (onF a P).write v (w.bump ((onF a P).size v)) = .error e := (ho.tagged w).symm.trans he
  exact this.total _ _ _ h1

theorem fileOn_law {P : Platform} [s : SsbhType α] [h : DerivesFile α t] [l : LawSsbh α]
    (hl : ∀ v, (∃ rn, LawfulAt ((fileOn P α).codec v) false v ((fileOn P α).size v) rn) ∧
      ∀ w e, (fileOn P α).write v w = .error e → e = .overflow) : LawFormat (fileOn P α) where
  magic := l.law.magic
  lawful v := (hl v).1
  total v := (hl v).2
  align := l.law.align
  version := l.law.version

end Verif.Derive
