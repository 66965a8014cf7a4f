import Verif.Data.BitUtils
/-!
# Lemmas about bit streams
-/

namespace Verif

theorem storeLe_length (n v : Nat) : (storeLe n v).length = n := by simp [storeLe]

theorem storeLe_succ (n v : Nat) : storeLe (n + 1) v = v.testBit 0 :: storeLe n (v / 2) := by
  simp only [storeLe, List.range_succ_eq_map, List.map_cons, List.map_map]
  congr 1
  apply List.map_congr_left
  intro i _
  simp [Nat.testBit_succ]

theorem loadLe_storeLe : ∀ n v, loadLe (storeLe n v) = v % 2 ^ n
  | 0, v => by simp [storeLe, loadLe, Nat.mod_one]
  | n + 1, v => by
    rw [storeLe_succ, loadLe, loadLe_storeLe n, Nat.pow_succ, Nat.mul_comm (2 ^ n) 2, Nat.mod_mul]
    simp [Nat.testBit_zero, Bool.toNat]
    rcases Nat.mod_two_eq_zero_or_one v with h | h <;> simp [h]

theorem storeLe_loadLe : ∀ (bs : List Bool) (n : Nat), bs.length ≤ n →
    storeLe n (loadLe bs) = bs ++ List.replicate (n - bs.length) false
  | [], n, _ => by
    simp only [loadLe, storeLe, List.nil_append, List.length_nil, Nat.sub_zero]
    apply List.ext_getElem <;> simp
  | b :: bs, 0, h => by simp at h
  | b :: bs, n + 1, h => by
    have ih := storeLe_loadLe bs n (by simpa using h)
    rw [storeLe_succ, loadLe, show (b.toNat + 2 * loadLe bs) / 2 = loadLe bs by
      cases b <;> simp [Bool.toNat] <;> omega, ih]
    simp only [List.length_cons, Nat.add_sub_add_right, List.cons_append]
    congr 1
    cases b <;> simp [Nat.testBit_zero, Bool.toNat]

theorem loadLe_lt : ∀ bs : List Bool, loadLe bs < 2 ^ bs.length
  | [] => by simp [loadLe]
  | b :: bs => by
    have := loadLe_lt bs
    simp only [loadLe, List.length_cons, Nat.pow_succ]
    cases b <;> simp [Bool.toNat] <;> omega

theorem byteBits_eq (b : UInt8) : byteBits b = storeLe 8 b.toNat := rfl

theorem bitsToBytes_nil : bitsToBytes [] = [] := rfl

theorem bitsToBytes_step (bits : List Bool) (h : bits ≠ []) :
    bitsToBytes bits = UInt8.ofNat (loadLe (bits.take 8)) :: bitsToBytes (bits.drop 8) := by
  have hl : 0 < bits.length := List.length_pos_iff.mpr h
  have : (bits.length + 7) / 8 = ((bits.drop 8).length + 7) / 8 + 1 := by
    simp only [List.length_drop]; omega
  unfold bitsToBytes
  rw [this, List.range_succ_eq_map, List.map_cons, List.map_map]
  simp only [Nat.mul_zero, List.drop_zero, List.cons.injEq, true_and]
  apply List.map_congr_left
  intro i _
  simp only [Function.comp_apply, List.drop_drop]
  rw [show 8 * (i + 1) = 8 + 8 * i by omega]

/-- The bytes of a bit vector hold its bits, followed by zero bits up to the next byte boundary. -/
theorem bits_bitsToBytes : ∀ (n : Nat) (bits : List Bool), bits.length ≤ n →
    ∃ k, k < 8 ∧ (bitsToBytes bits).flatMap byteBits = bits ++ List.replicate k false
  | 0, bits, h => by
    have : bits = [] := List.eq_nil_of_length_eq_zero (by omega)
    subst this
    exact ⟨0, by omega, by simp [bitsToBytes_nil]⟩
  | n + 1, bits, h => by
    by_cases hb : bits = []
    · subst hb
      exact ⟨0, by omega, by simp [bitsToBytes_nil]⟩
    · have hl : 0 < bits.length := List.length_pos_iff.mpr hb
      obtain ⟨k, hk, ih⟩ := bits_bitsToBytes n (bits.drop 8) (by simp; omega)
      have hbyte : byteBits (UInt8.ofNat (loadLe (bits.take 8)))
          = bits.take 8 ++ List.replicate (8 - (bits.take 8).length) false := by
        rw [byteBits_eq]
        have hlt := loadLe_lt (bits.take 8)
        have h8 : (bits.take 8).length ≤ 8 := by simp; omega
        have : 2 ^ (bits.take 8).length ≤ 2 ^ 8 := Nat.pow_le_pow_right (by omega) h8
        rw [show (UInt8.ofNat (loadLe (bits.take 8))).toNat = loadLe (bits.take 8) by simp; omega]
        exact storeLe_loadLe _ _ h8
      rw [bitsToBytes_step bits hb, List.flatMap_cons, hbyte, ih]
      by_cases h8 : 8 ≤ bits.length
      · refine ⟨k, hk, ?_⟩
        have : (bits.take 8).length = 8 := by simp; omega
        rw [this]
        simp only [Nat.sub_self, List.replicate_zero, List.append_nil]
        rw [← List.append_assoc, List.take_append_drop]
      · refine ⟨8 - bits.length + k, ?_, ?_⟩
        · have e : bits.drop 8 = [] := by simp; omega
          rw [e] at ih
          have hk0 : k = 0 := by
            have := congrArg List.length ih
            simp [bitsToBytes_nil] at this
            exact this.symm
          omega
        · rw [List.take_of_length_le (by omega), List.drop_of_length_le (by omega), List.nil_append,
            List.append_assoc, List.replicate_append_replicate]

theorem bitsToBytes_length (bits : List Bool) : (bitsToBytes bits).length = (bits.length + 7) / 8 := by
  simp [bitsToBytes]

/-! ## Emitting and reading -/

/-- `f` overwrites the next bits by `e` whenever they fit, moves behind them, and leaves the others alone. -/
def Emits (f : BitWrite) (e : List Bool) : Prop :=
  ∀ pre mid post, mid.length = e.length →
    f ⟨pre ++ mid ++ post, pre.length⟩ = .ok ((), ⟨pre ++ e ++ post, (pre ++ e).length⟩)

/-- `g` reads `v` from the bits `e`, whatever comes before and after, and consumes exactly `e`. -/
def Reads (g : BitRead α) (e : List Bool) (v : α) : Prop :=
  ∀ pre post, g ⟨pre ++ e ++ post, pre.length⟩ = .ok (v, ⟨pre ++ e ++ post, (pre ++ e).length⟩)

theorem splice_eq (pre mid post e : List Bool) (h : mid.length = e.length) :
    BitWriter.splice e ⟨pre ++ mid ++ post, pre.length⟩ = ⟨pre ++ e ++ post, (pre ++ e).length⟩ := by
  simp only [BitWriter.splice, BitWriter.mk.injEq, List.length_append, and_true]
  rw [List.append_assoc pre mid, List.take_left, ← h, ← List.append_assoc pre mid,
    ← List.length_append, List.drop_left]

theorem emits_pure : Emits (pure ()) [] := by
  intro pre mid post h
  have : mid = [] := List.eq_nil_of_length_eq_zero h
  subst this
  simp [pure, StateT.pure, Except.pure]

theorem Emits.bind {f g : BitWrite} {a b : List Bool} (hf : Emits f a) (hg : Emits g b) :
    Emits (f >>= fun _ => g) (a ++ b) := by
  intro pre mid post h
  have h1 := hf pre (mid.take a.length) (mid.drop a.length ++ post) (by
    simp at h ⊢; omega)
  have h2 := hg (pre ++ a) (mid.drop a.length) post (by simp at h ⊢; omega)
  have e : pre ++ mid.take a.length ++ (mid.drop a.length ++ post) = pre ++ mid ++ post := by
    simp only [List.append_assoc]
    rw [← List.append_assoc (mid.take _), List.take_append_drop]
  rw [e] at h1
  simp only [Bind.bind, StateT.bind, h1, Except.bind]
  rw [← List.append_assoc (pre ++ a) (mid.drop _) post, h2]
  simp

theorem emits_write (v : UInt32) (n : Nat) (h0 : n ≠ 0) (h32 : n ≤ 32) :
    Emits (BitWriter.write v n) (storeLe n v.toNat) := by
  intro pre mid post h
  rw [storeLe_length] at h
  rw [← splice_eq pre mid post _ (by rw [storeLe_length]; exact h)]
  unfold BitWriter.write
  rw [if_pos]
  refine ⟨?_, h0, h32⟩
  simp; omega

theorem emits_writeBit (b : Bool) : Emits (BitWriter.writeBit b) [b] := by
  intro pre mid post h
  rw [← splice_eq pre mid post _ h]
  unfold BitWriter.writeBit
  rw [if_pos]
  simp at h ⊢; omega

theorem reads_pure (v : α) : Reads (pure v) [] v := by
  intro pre post
  simp [pure, StateT.pure, Except.pure]

theorem Reads.bind {f : BitRead α} {g : α → BitRead β} {a b : List Bool} {x : α} {y : β}
    (hf : Reads f a x) (hg : Reads (g x) b y) : Reads (f >>= g) (a ++ b) y := by
  intro pre post
  have h1 := hf pre (b ++ post)
  have h2 := hg (pre ++ a) post
  simp only [List.append_assoc] at h1 h2 ⊢
  simp only [Bind.bind, StateT.bind, h1, Except.bind, h2]

/-- A pure continuation. -/
theorem Reads.bind' {f : BitRead α} {g : α → BitRead β} {a : List Bool} {x : α} {y : β}
    (hf : Reads f a x) (hg : Reads (g x) [] y) : Reads (f >>= g) a y := by
  simpa using Reads.bind hf hg

theorem reads_readUint (max n v : Nat) (h0 : n ≠ 0) (hm : n ≤ max) :
    Reads (BitReader.readUint max n) (storeLe n v) (v % 2 ^ n) := by
  intro pre post
  unfold BitReader.readUint
  simp only [List.length_append, storeLe_length]
  rw [if_pos (by omega), if_neg (by omega)]
  rw [List.append_assoc, List.drop_left, List.take_append_of_le_length (by rw [storeLe_length]; omega),
    List.take_of_length_le (by rw [storeLe_length]; omega), loadLe_storeLe]

theorem reads_readU32 (n : Nat) (v : UInt32) (h0 : n ≠ 0) (hm : n ≤ 32) :
    Reads (BitReader.readU32 n) (storeLe n v.toNat) (UInt32.ofNat (v.toNat % 2 ^ n)) :=
  (reads_readUint 32 n _ h0 hm).bind' (reads_pure _)

theorem reads_readU8 (n : Nat) (v : Nat) (h0 : n ≠ 0) (hm : n ≤ 8) :
    Reads (BitReader.readU8 n) (storeLe n v) (UInt8.ofNat (v % 2 ^ n)) :=
  (reads_readUint 8 n _ h0 hm).bind' (reads_pure _)

theorem reads_readBit (b : Bool) : Reads BitReader.readBit [b] b := by
  intro pre post
  unfold BitReader.readBit
  simp

end Verif
