import Verif.Json.TextLaws
import Verif.Json.ShapeLaws
/-!
# What is written fits

The JSON values of a type have only numbers that `serde_json` writes, and are nested at most `d` deep.
-/

namespace Verif

class JSmall (c : JCodec α) (d : outParam Nat) : Prop where
  ok : ∀ v, (c.ser v).fits = true ∧ (c.ser v).depth ≤ d

class JRecSmall (r : JRec α) (d : outParam Nat) : Prop where
  ok : ∀ v, ∀ j ∈ r.ser v, j.fits = true ∧ j.depth ≤ d

theorem J.fitsList_iff : ∀ {l : List J}, J.fitsList l = true ↔ ∀ j ∈ l, j.fits = true
  | [] => by simp [J.fitsList]
  | j :: l => by simp [J.fitsList, J.fitsList_iff (l := l)]

theorem J.fitsEntries_iff : ∀ {l : List (String × J)}, J.fitsEntries l = true ↔ ∀ e ∈ l, e.2.fits = true
  | [] => by simp [J.fitsEntries]
  | (_, j) :: l => by simp [J.fitsEntries, J.fitsEntries_iff (l := l)]

theorem J.depthList_le {d : Nat} : ∀ {l : List J}, J.depthList l ≤ d ↔ ∀ j ∈ l, j.depth ≤ d
  | [] => by simp [J.depthList]
  | j :: l => by simp [J.depthList, J.depthList_le (l := l)]

theorem J.depthEntries_le {d : Nat} : ∀ {l : List (String × J)}, J.depthEntries l ≤ d ↔ ∀ e ∈ l, e.2.depth ≤ d
  | [] => by simp [J.depthEntries]
  | (_, j) :: l => by simp [J.depthEntries, J.depthEntries_le (l := l)]

theorem small_arr {l : List J} {d : Nat} (h : ∀ j ∈ l, j.fits = true ∧ j.depth ≤ d) :
    (J.arr l).fits = true ∧ (J.arr l).depth ≤ d + 1 := by
  rw [J.fits, J.depth]
  exact ⟨J.fitsList_iff.mpr fun j hj => (h j hj).1, Nat.succ_le_succ (J.depthList_le.mpr fun j hj => (h j hj).2)⟩

theorem small_obj {l : List (String × J)} {d : Nat} (h : ∀ e ∈ l, e.2.fits = true ∧ e.2.depth ≤ d) :
    (J.obj l).fits = true ∧ (J.obj l).depth ≤ d + 1 := by
  rw [J.fits, J.depth]
  exact ⟨J.fitsEntries_iff.mpr fun j hj => (h j hj).1, Nat.succ_le_succ (J.depthEntries_le.mpr fun j hj => (h j hj).2)⟩

theorem small_one {n : String} {j : J} {d e : Nat} (h : j.fits = true ∧ j.depth ≤ d) (he : d ≤ e) :
    (J.obj [(n, j)]).fits = true ∧ (J.obj [(n, j)]).depth ≤ e + 1 :=
  small_obj fun x hx => by
    rw [List.mem_singleton] at hx
    subst hx
    exact ⟨h.1, Nat.le_trans h.2 he⟩

theorem small_num {n : Int} (h1 : -2 ^ 63 ≤ n) (h2 : n < 2 ^ 64) : (J.num n).fits = true ∧ (J.num n).depth ≤ 0 :=
  ⟨by rw [J.fits, decide_eq_true h1, decide_eq_true h2]; rfl, Nat.le_refl _⟩

instance : JSmall JCodec.boolean 0 := ⟨fun _ => ⟨rfl, Nat.le_refl _⟩⟩
instance : JSmall JCodec.u8 0 := ⟨fun v => by
  have := v.toNat_lt
  exact small_num (n := (v.toNat : Int)) (by omega) (by omega)⟩
instance : JSmall JCodec.u16 0 := ⟨fun v => by
  have := v.toNat_lt
  exact small_num (n := (v.toNat : Int)) (by omega) (by omega)⟩
instance : JSmall JCodec.u32 0 := ⟨fun v => by
  have := v.toNat_lt
  exact small_num (n := (v.toNat : Int)) (by omega) (by omega)⟩
instance : JSmall JCodec.u64 0 := ⟨fun v => by
  have := v.toNat_lt
  exact small_num (n := (v.toNat : Int)) (by omega) (by omega)⟩
instance : JSmall JCodec.i16 0 := ⟨fun v => by
  have h1 := v.le_toInt
  have h2 := v.toInt_lt
  exact small_num (n := v.toInt) (by omega) (by omega)⟩
instance : JSmall JCodec.i32 0 := ⟨fun v => by
  have h1 := v.le_toInt
  have h2 := v.toInt_lt
  exact small_num (n := v.toInt) (by omega) (by omega)⟩
instance : JSmall JCodec.f32 0 := ⟨fun x => by
  rw [f32_ser, Shape.ofFloat]
  split
  · exact ⟨rfl, Nat.le_refl _⟩
  · rename_i h
    exact ⟨by rw [J.fits]; simpa using h, Nat.le_refl _⟩⟩
instance : JSmall JCodec.string 0 := ⟨fun _ => ⟨rfl, Nat.le_refl _⟩⟩
instance : JSmall JCodec.cstr 0 := ⟨fun _ => ⟨rfl, Nat.le_refl _⟩⟩
instance : JSmall JCodec.hex 0 := ⟨fun _ => ⟨rfl, Nat.le_refl _⟩⟩
instance : JSmall JCodec.unit 0 := ⟨fun _ => ⟨rfl, Nat.le_refl _⟩⟩
instance : JSmall (JCodec.enumNames names tags) 0 := ⟨fun _ => ⟨rfl, Nat.le_refl _⟩⟩
instance [DecidableEq α] {l : List (String × α)} : JSmall (JCodec.variants l) 0 := ⟨fun _ => ⟨rfl, Nat.le_refl _⟩⟩

instance {c : JCodec α} {k : Nat} [h : JSmall c k] : JSmall (JCodec.vec c) (k + 1) := ⟨fun l => small_arr fun j hj => by
  obtain ⟨v, -, rfl⟩ := List.mem_map.mp hj
  exact h.ok v⟩
instance {c : JCodec α} {k : Nat} [h : JSmall c k] : JSmall (JCodec.arrayN n c) (k + 1) := ⟨fun l => small_arr fun j hj => by
  obtain ⟨v, -, rfl⟩ := List.mem_map.mp hj
  exact h.ok v⟩
instance {c : JCodec α} {k : Nat} [h : JSmall c k] : JSmall (JCodec.array c) (k + 1) := inferInstanceAs (JSmall (JCodec.vec c) _)
instance {c : JCodec α} {k : Nat} [h : JSmall c k] : JSmall (JCodec.option c) k := ⟨fun v => by
  cases v with
  | none => exact ⟨rfl, Nat.zero_le _⟩
  | some v => exact h.ok v⟩
instance {c : JCodec α} {k : Nat} [h : JSmall c k] : JSmall (JCodec.newtype c) k := ⟨h.ok⟩
instance {c : JCodec α} {k : Nat} [JSmall c k] : JSmall (JCodec.relPtr c) k := inferInstanceAs (JSmall (JCodec.newtype (JCodec.option c)) _)
instance {c : JCodec α} {k : Nat} [JSmall c k] : JSmall (JCodec.ptr c) k := inferInstanceAs (JSmall (JCodec.option c) _)
instance : JSmall JCodec.ssbhString 0 := inferInstanceAs (JSmall (JCodec.newtype (JCodec.relPtr (JCodec.newtype JCodec.cstr))) _)
instance {c : JCodec β} {k : Nat} [h : JSmall c k] {f : α → β} {g : β → α} : JSmall (JCodec.via c f g) k := ⟨fun v => h.ok (f v)⟩
instance {c : JCodec α} {k : Nat} [h : JSmall c k] {d : α} : JSmall (JCodec.orNull c d) k := ⟨h.ok⟩

instance {c : JCodec α} {k : Nat} [h : JSmall c k] : JRecSmall (.field n c) k := ⟨fun v j hj => by
  rw [List.mem_singleton.mp hj]
  exact h.ok v⟩
instance {c : JCodec α} {k : Nat} [h : JSmall c k] {d : α} : JRecSmall (.fieldOr n c d) k := ⟨fun v j hj => by
  rw [List.mem_singleton.mp hj]
  exact h.ok v⟩
instance {r : JRec α} {s : JRec β} {k l : Nat} [h1 : JRecSmall r k] [h2 : JRecSmall s l] : JRecSmall (r.and s) (max k l) := ⟨fun v j hj => by
  rcases List.mem_append.mp hj with hj | hj
  · exact ⟨(h1.ok _ j hj).1, Nat.le_trans (h1.ok _ j hj).2 (Nat.le_max_left ..)⟩
  · exact ⟨(h2.ok _ j hj).1, Nat.le_trans (h2.ok _ j hj).2 (Nat.le_max_right ..)⟩⟩
instance {r : JRec β} {k : Nat} [h : JRecSmall r k] {f : α → β} {g : β → α} :
    JSmall (JCodec.struct r f g) (k + 1) := ⟨fun _ =>
  small_obj fun _ he => h.ok _ _ (List.of_mem_zip he).2⟩

theorem JSmall.le {c : JCodec α} {k l : Nat} (h : JSmall c k) (hl : k ≤ l) : JSmall c l :=
  ⟨fun v => ⟨(h.ok v).1, Nat.le_trans (h.ok v).2 hl⟩⟩

instance : JSmall JCodec.bitfield16 2 := inferInstanceAs (JSmall (JCodec.struct ..) _)
instance : JSmall JCodec.bitfield32 2 := inferInstanceAs (JSmall (JCodec.struct ..) _)
instance {c : JCodec α} {k : Nat} [JSmall c k] : JSmall (JCodec.enum64 c) (k + 1) := inferInstanceAs (JSmall (JCodec.struct ..) _)

end Verif
