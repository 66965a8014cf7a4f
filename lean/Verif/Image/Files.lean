import Verif.Image.Laws
import Verif.Lib.FileLaws
/-!
# Written files
-/

namespace Verif
open Image

/-- Writes that agree with some bytes. -/
theorem render_agrees {b : Bytes} {i : Nat} : ∀ {N : List Ev}, HasAll b N → Covered N i → (render N)[i]? = b[i]? ∧ i < b.length
  | [], _, ⟨_, _, hm, _⟩ => by simp at hm
  | .ptr .. :: N, h, ⟨p, bs, hm, hi⟩ =>
    render_agrees (N := N) (fun p bs hm => h p bs (List.mem_cons_of_mem _ hm)) ⟨p, bs, by simpa using hm, hi⟩
  | .obj .. :: N, h, ⟨p, bs, hm, hi⟩ =>
    render_agrees (N := N) (fun p bs hm => h p bs (List.mem_cons_of_mem _ hm)) ⟨p, bs, by simpa using hm, hi⟩
  | .data q cs :: N, h, ⟨p, bs, hm, hi⟩ => by
    simp only [render]
    rw [getElem?_putAt]
    by_cases hq : q ≤ i ∧ i < q + cs.length
    · rw [if_pos hq]
      have := h q cs List.mem_cons_self (i - q) (by omega)
      rw [show q + (i - q) = i by omega] at this
      rw [this, List.getElem?_eq_getElem (by omega)]
      exact ⟨rfl, (List.getElem?_eq_some_iff.mp this).1⟩
    · rw [if_neg hq]
      have hm' : Ev.data p bs ∈ N := by
        rcases List.mem_cons.mp hm with h | h
        · cases h; exact (hq hi).elim
        · exact h
      have ih := render_agrees (N := N) (fun p bs hm => h p bs (List.mem_cons_of_mem _ hm)) ⟨p, bs, hm', hi⟩
      have hlt : i < (render N).length := by
        exact (List.getElem?_eq_some_iff.mp (ih.1.trans (List.getElem?_eq_getElem ih.2))).1
      rw [if_neg (by omega)]
      exact ih

/-- Events, and bytes that agree with them and are zero elsewhere. -/
theorem render_eq {N : List Ev} {b : Bytes} (hb : HasAll b N)
    (hc : ∀ i (h : i < b.length), Covered N i ∨ b[i] = 0) (hl : b ≠ [] → Covered N (b.length - 1)) : render N = b := by
  have len : (render N).length = b.length := by
    apply Nat.le_antisymm
    · by_cases h : render N = []
      · simp [h]
      · have := (render_agrees hb (render_last h)).2; omega
    · by_cases h : b = []
      · simp [h]
      · have h1 := render_agrees hb (hl h)
        have := (List.getElem?_eq_some_iff.mp (h1.1.trans (List.getElem?_eq_getElem h1.2))).1
        omega
  apply List.ext_getElem?
  intro i
  by_cases hi : i < b.length
  · by_cases hv : Covered N i
    · exact (render_agrees hb hv).1
    · rw [render_zero (by omega) hv, List.getElem?_eq_getElem hi, (hc i hi).resolve_left hv]
  · rw [List.getElem?_eq_none (by omega), List.getElem?_eq_none (by omega)]

theorem hasAt_self (xs : Bytes) : HasAt xs 0 xs := by
  intro i hi; simp [hi]

theorem Filled.pairs {N : List Ev} {p e q : Nat} {h1 h2 : Bytes} (x : Filled N p h1 e []) (hq : p + h1.length = q) :
    Filled (.data q h2 :: N) p (h1 ++ h2) e [] := by
  subst hq
  exact x.and (Filled.data _ _ _)

theorem header_filled {magic : Bytes} (hm : magic.length = 4) (maj min : UInt16) (e : Nat) :
    Filled (headerEvents magic maj min) 0 ([0x48, 0x42, 0x53, 0x53] ++ le 8 64 ++ le 4 0 ++ magic ++ le 2 maj.toNat ++
      le 2 min.toNat) e [] := by
  simp only [le_eq]
  exact (((((Filled.data 0 e [0x48, 0x42, 0x53, 0x53]).pairs rfl).pairs (by simp [leBytes_length])).pairs
    (by simp [leBytes_length])).pairs (by simp [leBytes_length, hm])).pairs (by simp [leBytes_length, hm])

theorem Filled.bytes {N : List Ev} {here app : Bytes} {n : Nat} (h : Filled N 0 here n app) (hn : here.length = n) :
    render N = here ++ app := by
  subst hn
  have hall : Puts N 0 (here ++ app) := by
    refine Puts.append ⟨fun i hi => Or.inl (h.here i hi), fun hn => ?_⟩ ?_
    · have := List.length_pos_iff.mpr hn
      have := h.here (here.length - 1) (by omega)
      rwa [← Nat.add_sub_assoc (by omega)] at this
    · rw [Nat.zero_add]; exact h.puts
  obtain ⟨b1, b2⟩ := hasAt_append (hasAt_self (here ++ app))
  rw [Nat.zero_add] at b2
  refine render_eq (h.has _ b1 b2) (fun i hi => ?_) (fun hn => ?_)
  · have := hall.cover i hi
    rwa [Nat.zero_add] at this
  · have := hall.last hn
    rwa [Nat.zero_add] at this

/-- The writer of a format produces the file. -/
class EmitFile (α : Type) [t : SsbhType α] (f : outParam (α → Image.File)) : Prop where
  emits : ∀ v, Makes false (t.format.write v) (f v).fields
  size : ∀ v, t.format.size v = (f v).fields.size
  head : ∀ v, t.format.magic = (f v).magic ∧ (t.format.version v).1.toNat = (f v).major ∧
    (t.format.version v).2.toNat = (f v).minor ∧ t.format.alignAfter v = (f v).align

theorem EmitFile.bytes [t : SsbhType α] [l : LawFormat t.format] {f : α → Image.File} [h : EmitFile α f] (v : α) :
    match t.format.toBytes v with
    | .error _ => 2 ^ 64 ≤ (f v).stop
    | .ok b => b = (f v).bytes := by
  have hm := l.magic
  obtain ⟨e1, e2, e3, e4⟩ := h.head v
  have hs := h.size v
  have hal := l.align v
  let w0 : W := ⟨headerEvents t.format.magic (t.format.version v).1 (t.format.version v).2, 24, 24 + t.format.size v⟩
  have e : t.format.writeBody v = t.format.write v w0 := by
    simp only [Format.writeBody, Format.writeBodyTo, writeSsbhHeader, W.init, W.put, W.setDp, leBytes_length, hm,
      headerEvents, w0]
    congr 2
    simp; omega
  have d := (h.emits v).does w0 (24 + (f v).fields.size) (Nat.le_max_right _ _) (by simp)
  have good := (h.emits v).good
  rw [show max w0.dp (w0.pos + (f v).fields.size) = 24 + (f v).fields.size by simp only [w0]; omega] at d
  cases hw : t.format.write v w0 with
  | error er =>
    have : t.format.toBytes v = .error er := by
      simp only [Format.toBytes, Format.writeFile_eq, e, hw]
    rw [this]
    rw [hw] at d
    exact d
  | ok w =>
    rw [hw] at d
    obtain ⟨p1, p2, N, p3, p4⟩ := d
    have hbuf : w.buf = (f v).body := by
      have hf := header_filled hm (t.format.version v).1 (t.format.version v).2 (24 + (f v).fields.size)
      have hl : (([0x48, 0x42, 0x53, 0x53] : Bytes) ++ le 8 64 ++ le 4 0 ++ t.format.magic ++
          le 2 (t.format.version v).1.toNat ++ le 2 (t.format.version v).2.toNat).length = 24 := by simp [hm]
      have all := hf.and (by rw [hl]; exact p4)
      rw [show N ++ headerEvents t.format.magic (t.format.version v).1 (t.format.version v).2 = w.log from p3.symm] at all
      have := all.bytes (by rw [List.length_append, hl, good.len])
      rw [e1, e2, e3] at this
      simp only [File.body, record, W.buf, this, w0, List.append_assoc, List.nil_append]
    have : t.format.toBytes v = .ok (f v).bytes := by
      have h1 : t.format.toBytes v = .ok (if t.format.alignAfter v = 1 then w else alignEnd (t.format.alignAfter v) w).buf := by
        simp only [Format.toBytes, Format.writeFile_eq, e, hw]
      obtain ⟨w', hw', hb⟩ := Format.toBytes_ok h1
      rw [e, hw] at hw'
      cases hw'
      rw [h1, hb, hbuf, e4, ← next_eq (by omega)]
      rfl
    rw [this]

/-! ## MeshEx -/

theorem absolute_good {al : Nat} (hal : 0 < al) {g : Target α} (h : ∀ v t, t + (g v t).1.length ≤ (g v t).2) (v : Option α) :
    Piece.Good (absolute al g v) := by
  cases v with
  | none => exact number_good 8 0
  | some v =>
    refine ⟨fun p e m => by simp [absolute], fun p e m he => ?_⟩
    simp only [absolute]
    have h1 := le_next hal m
    have h2 := h v (Image.next al m)
    have h3 := fill_length (bs := (g v (Image.next al m)).1) (Nat.le_trans he h1)
    omega

theorem absPtr_emits {a : Codec α} {g : Target α} (h : ∀ v, EmitT (a.write v) a.align (g v)) (hal : 0 < a.align)
    (v : Option α) : Makes false ((absPtr 8 a).write v) (absolute a.align g v) := by
  refine ⟨absolute_good hal (fun v => (h v).mono) v, fun w e he _ => ?_⟩
  cases v with
  | none => exact ((number_emits 8 0).struct (n := 8) rfl).does w e he (by simp)
  | some v =>
    have he : e ≤ max w.dp (w.pos + 8) := he
    have hle := le_next hal (max w.dp (w.pos + 8))
    show Does _ _ 8 e ⟨le 8 (Image.next a.align (max w.dp (w.pos + 8))), fill e _ _, _⟩
    simp only [absPtr, W.setDp_dp, W.bump_dp]
    rw [← next_eq hal, le_eq]
    by_cases hlt : Image.next a.align (max w.dp (w.pos + 8)) < 256 ^ 8
    · rw [if_pos hlt]
      exact target_does (h v) (t := Image.next a.align (max w.dp (w.pos + 8))) (by omega)
        (by rw [next_eq hal]; exact dvd_roundUp _ _) (leBytes_length ..)
    · rw [if_neg hlt]
      rw [pow_256_8] at hlt
      have := (h v).mono (Image.next a.align (max w.dp (w.pos + 8)))
      show 2 ^ 64 ≤ (g v (Image.next a.align (max w.dp (w.pos + 8)))).2
      omega

theorem absPtr_emit {a : Codec α} {g : Target α} (h : ∀ v, EmitT (a.write v) a.align (g v)) (hal : 0 < a.align) :
    EmitC (absPtr 8 a) (absolute a.align g) where
  emits := absPtr_emits h hal
  size v := by cases v <;> rfl
  fixed := ⟨8, by decide, fun _ => rfl⟩

end Verif
