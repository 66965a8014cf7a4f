import Verif.Data.BitLaws
/-!
# C20: bit streams
-/

namespace Verif.Props
open Verif

/-- One call on a bit stream: a number with a width, or a single bit. -/
inductive BitCall where
  | num (value : UInt32) (width : Nat)
  | bit (value : Bool)
  deriving DecidableEq, Repr

namespace BitCall

/-- The number of bits used. -/
def width : BitCall → Nat
  | num _ n => n
  | bit _ => 1

/-- The widths the streams support. -/
def ok : BitCall → Prop
  | num _ n => 1 ≤ n ∧ n ≤ 32
  | bit _ => True

/-- What a reader is supposed to get back. -/
def expected : BitCall → BitCall
  | num v n => num (UInt32.ofNat (v.toNat % 2 ^ n)) n
  | bit b => bit b

/-- The call on the writer. -/
def write : BitCall → BitWrite
  | num v n => BitWriter.write v n
  | bit b => BitWriter.writeBit b

/-- The call on the reader with the same width, tagged with the result. -/
def read : BitCall → BitRead BitCall
  | num _ n => do return num (← BitReader.readU32 n) n
  | bit _ => do return bit (← BitReader.readBit)

end BitCall

def writeCalls : List BitCall → BitWrite
  | [] => pure ()
  | c :: cs => do c.write; writeCalls cs

def readCalls : List BitCall → BitRead (List BitCall)
  | [] => pure []
  | c :: cs => do
    let x ← c.read
    let xs ← readCalls cs
    return x :: xs

/-- The bits of a call, low bits first. -/
def BitCall.bits : BitCall → List Bool
  | num v n => storeLe n v.toNat
  | bit b => [b]

theorem BitCall.bits_length (c : BitCall) : c.bits.length = c.width := by
  cases c <;> simp [bits, width, storeLe_length]

theorem calls_width (cs : List BitCall) : (cs.flatMap BitCall.bits).length = (cs.map BitCall.width).sum := by
  induction cs with
  | nil => rfl
  | cons c cs ih => simp [BitCall.bits_length, ih]

theorem emits_calls (cs : List BitCall) (h : ∀ c ∈ cs, c.ok) : Emits (writeCalls cs) (cs.flatMap BitCall.bits) := by
  induction cs with
  | nil => exact emits_pure
  | cons c cs ih =>
    rw [List.flatMap_cons]
    refine Emits.bind ?_ (ih fun c hc => h c (List.mem_cons_of_mem _ hc))
    have hc := h c List.mem_cons_self
    cases c with
    | num v n => exact emits_write v n (by simp [BitCall.ok] at hc; omega) (by simp [BitCall.ok] at hc; omega)
    | bit b => exact emits_writeBit b

theorem reads_calls (cs : List BitCall) (h : ∀ c ∈ cs, c.ok) :
    Reads (readCalls cs) (cs.flatMap BitCall.bits) (cs.map BitCall.expected) := by
  induction cs with
  | nil => exact reads_pure _
  | cons c cs ih =>
    rw [List.flatMap_cons]
    refine Reads.bind (x := c.expected) ?_ ((ih fun c hc => h c (List.mem_cons_of_mem _ hc)).bind' (reads_pure _))
    have hc := h c List.mem_cons_self
    cases c with
    | num v n =>
      exact (reads_readU32 n v (by simp [BitCall.ok] at hc; omega) (by simp [BitCall.ok] at hc; omega)).bind'
        (reads_pure _)
    | bit b => exact (reads_readBit b).bind' (reads_pure _)

/-- Whatever is written into a preallocated buffer of the total width is read back by the same sequence of
widths, modulo `2 ^ width`, and the reader stands exactly behind the written bits. -/
theorem C20_round_trip (calls : List BitCall) (h : ∀ c ∈ calls, c.ok) (init : List Bool)
    (hinit : init.length = (calls.map BitCall.width).sum) :
    ∃ w, writeCalls calls (.new init) = .ok ((), w) ∧ w.index = init.length ∧
      ∃ r, readCalls calls (.fromSlice w.intoBytes) = .ok (calls.map BitCall.expected, r) ∧
        r.index = (calls.map BitCall.width).sum := by
  have hw := emits_calls calls h [] init [] (by rw [calls_width, hinit])
  simp only [List.nil_append, List.append_nil, List.length_nil] at hw
  refine ⟨_, hw, by rw [calls_width, hinit], ?_⟩
  obtain ⟨k, _, hk⟩ := bits_bitsToBytes _ (calls.flatMap BitCall.bits) (Nat.le_refl _)
  have hr := reads_calls calls h [] (List.replicate k false)
  simp only [List.nil_append, List.length_nil] at hr
  unfold BitReader.fromSlice BitWriter.intoBytes
  rw [hk, hr]
  exact ⟨_, rfl, calls_width calls⟩

example : ∀ c ∈ [BitCall.num 0x12345 17, .bit true, .num 5 2, .bit false, .num 0xffffffff 32], c.ok := by
  simp [BitCall.ok]

example : ∃ w, writeCalls [.num 0x12345 17, .bit true, .num 5 2] (.new (List.replicate 20 false)) = .ok ((), w) ∧
    w.intoBytes = [0x45, 0x23, 0x07] := ⟨_, rfl, by decide⟩

/-- A read succeeds only if all its bits are in the buffer, and then returns exactly these bits. -/
theorem C20_read_exact (n : Nat) (r r' : BitReader) (v : UInt32) (h : BitReader.readU32 n r = .ok (v, r')) :
    r.index + n ≤ r.bits.length ∧ r' = ⟨r.bits, r.index + n⟩ ∧
      (∀ i < n, r.bits[r.index + i]? = some (v.toNat.testBit i)) ∧ v.toNat < 2 ^ n := by
  simp only [BitReader.readU32, BitReader.readUint, Bind.bind, StateT.bind, Except.bind, pure, StateT.pure,
    Except.pure] at h
  split at h
  · cases h
  · rename_i x hx
    split at hx
    · rename_i hle
      split at hx
      · cases hx
      · rename_i hn
        cases hx
        simp only [Except.ok.injEq, Prod.mk.injEq] at h
        obtain ⟨hv, rfl⟩ := h
        have hlen : ((r.bits.drop r.index).take n).length = n := by simp; omega
        have hlt := loadLe_lt ((r.bits.drop r.index).take n)
        rw [hlen] at hlt
        have h32 : 2 ^ n ≤ 2 ^ 32 := Nat.pow_le_pow_right (by omega) (by omega)
        have hval : v.toNat = loadLe ((r.bits.drop r.index).take n) := by
          rw [← hv]; simp; omega
        refine ⟨hle, rfl, ?_, by omega⟩
        intro i hi
        have hs := storeLe_loadLe ((r.bits.drop r.index).take n) n (by omega)
        rw [hlen] at hs
        simp only [Nat.sub_self, List.replicate_zero, List.append_nil] at hs
        have := congrArg (·[i]?) hs
        simp only [storeLe, List.getElem?_map, List.getElem?_range hi, Option.map_some, List.getElem?_take,
          if_pos hi, List.getElem?_drop] at this
        rw [hval]
        exact this.symm
    · cases hx

example : ∃ v r', BitReader.readU32 3 ⟨[true, false, true, true], 1⟩ = .ok (v, r') := ⟨6, _, rfl⟩

/-- Reading past the end is an error, for numbers and for single bits. -/
theorem C20_past_end (r : BitReader) (n : Nat) :
    (r.bits.length < r.index + n →
      BitReader.readU32 n r = .error .notEnoughBits ∧ BitReader.readU8 n r = .error .notEnoughBits) ∧
    (r.bits.length ≤ r.index ↔ BitReader.readBit r = .error .notEnoughBits) := by
  constructor
  · intro h
    have : ∀ m, BitReader.readUint m n r = .error .notEnoughBits := by
      intro m; unfold BitReader.readUint; rw [if_neg (by omega)]
    simp [BitReader.readU32, BitReader.readU8, Bind.bind, StateT.bind, Except.bind, this]
  · unfold BitReader.readBit
    constructor
    · intro h
      rw [List.getElem?_eq_none h]
    · intro h
      split at h
      · cases h
      · rename_i hn
        exact List.getElem?_eq_none_iff.mp hn

example : (⟨[true, false, true, true], 1⟩ : BitReader).bits.length < 1 + 4 := by decide

/-- A write changes only its own bits: the buffer keeps its length and all the bits outside
`index .. index + n`; the bits inside become the low bits of the value. A write that does not fit panics. -/
theorem C20_write_frame (value : UInt32) (n : Nat) (w : BitWriter) (hn : 1 ≤ n ∧ n ≤ 32) :
    (w.bits.length < w.index + n → BitWriter.write value n w = .error .panic) ∧
    (w.index + n ≤ w.bits.length → ∃ w', BitWriter.write value n w = .ok ((), w') ∧
      w'.index = w.index + n ∧ w'.bits.length = w.bits.length ∧
      (∀ i, i < w.index ∨ w.index + n ≤ i → w'.bits[i]? = w.bits[i]?) ∧
      ∀ i < n, w'.bits[w.index + i]? = some (value.toNat.testBit i)) := by
  constructor
  · intro h
    unfold BitWriter.write
    rw [if_neg (by omega)]
  · intro h
    unfold BitWriter.write
    rw [if_pos ⟨h, by omega, by omega⟩]
    have hl : (w.bits.take w.index).length = w.index := by simp; omega
    refine ⟨_, rfl, ?_, ?_, ?_, ?_⟩
    · simp [BitWriter.splice, storeLe_length]
    · simp [BitWriter.splice, storeLe_length]; omega
    · intro i hi
      simp only [BitWriter.splice, storeLe_length]
      rcases hi with hi | hi
      · rw [List.append_assoc, List.getElem?_append_left (by omega), List.getElem?_take, if_pos hi]
      · rw [List.getElem?_append_right (by simp [storeLe_length]; omega), List.getElem?_drop]
        congr 1
        simp [storeLe_length]; omega
    · intro i hi
      simp only [BitWriter.splice, storeLe_length]
      rw [List.append_assoc, List.getElem?_append_right (by omega), List.getElem?_append_left (by
        rw [storeLe_length]; omega), hl, Nat.add_sub_cancel_left]
      simp [storeLe, hi]

example : ∃ w', BitWriter.write 5 3 ⟨[true, true, true, true, true], 1⟩ = .ok ((), w') ∧
    w'.bits = [true, true, false, true, true] := ⟨_, rfl, by decide⟩

end Verif.Props
