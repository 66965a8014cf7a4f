import Verif.Json.Tool
import Verif.Json.FormatLaws
import Verif.Json.FormatOrder
import Verif.Props.PlainFiles
/-!
# C63: files as JSON

`JsonFile.toJson` and `JsonFile.fromJson` are the conversions of ssbh_lib_json. `kept` says what JSON keeps of a value,
see `Verif.Json.Spec`.
-/

namespace Verif.Props
open Verif

/-- What JSON keeps of a file. -/
def fileKept : JSpec JsonFile where
  isNull _ := false
  fin
    | .ssbh v => Ssbh.kept.fin v
    | .meshEx v => MeshEx.kept.fin v
    | .adj v => Adj.kept.fin v
  norm
    | .ssbh v => .ssbh (Ssbh.kept.norm v)
    | .meshEx v => .meshEx (MeshEx.kept.norm v)
    | .adj v => .adj (Adj.kept.norm v)

/-! ## The order of the types -/

theorem ssbh_single (v : Ssbh) : ∃ n j, Ssbh.json.ser v = .obj [(n, j)] ∧ n ≠ "unk1" ∧ n ≠ "entries" := by
  cases v <;> exact ⟨_, _, rfl, by decide, by decide⟩

theorem meshEx_needs {l : List (String × J)} (h : l.lookup "unk1" = none) : MeshEx.json.de (.obj l) = none := by
  simp only [MeshEx.json, JCodec.struct]
  split
  · rfl
  · have e : ∀ {α : Type} {r : JRec α}, ((r.and (.field "unk1" JCodec.u32)).de (fun n => l.lookup n)) = none := by
      intro _ r
      simp only [JRec.and, JRec.field, h]
      cases r.de (fun n => l.lookup n) <;> rfl
    have e' : ∀ {α β : Type} {r : JRec α} {q : JRec β}, q.de (fun n => l.lookup n) = none → (r.and q).de (fun n => l.lookup n) = none := by
      intro _ _ r q hq
      simp only [JRec.and, hq]
      cases r.de (fun n => l.lookup n) <;> rfl
    rw [e' (e' (e' e))]
    rfl

theorem adj_needs {l : List (String × J)} (h : l.lookup "entries" = none) : Adj.json.de (.obj l) = none := by
  simp only [Adj.json, JCodec.struct]
  split
  · rfl
  · have : ∀ {β : Type} {q : JRec β}, ((JRec.field "entries" (JCodec.vec Adj.AdjEntry.json)).and q).de (fun n => l.lookup n) = none := by
      intro _ q
      simp only [JRec.and, JRec.field, h]
      rfl
    rw [this]
    rfl

theorem lookup_single {n m : String} (j : J) (h : n ≠ m) : [(n, j)].lookup m = none := by
  rw [List.lookup_cons, show (m == n) = false by simpa using Ne.symm h]
  rfl

theorem fromJson_ssbh (v : Ssbh) : JsonFile.fromJson (Ssbh.json.ser v) = (Ssbh.kept.back v).map .ssbh := by
  have h := Ssbh.json_law.back v
  obtain ⟨n, j, e, h1, h2⟩ := ssbh_single v
  have e1 : MeshEx.json.de (Ssbh.json.ser v) = none := by rw [e]; exact meshEx_needs (lookup_single j h1)
  have e2 : Adj.json.de (Ssbh.json.ser v) = none := by rw [e]; exact adj_needs (lookup_single j h2)
  rw [JsonFile.fromJson, h, e1, e2]
  cases Ssbh.kept.back v <;> rfl

theorem ssbh_de_two (x y : String × J) (l : List (String × J)) : Ssbh.json.de (.obj (x :: y :: l)) = none := rfl

theorem fromJson_meshEx (v : MeshEx) : JsonFile.fromJson (MeshEx.json.ser v) = (MeshEx.kept.back v).map .meshEx := by
  have h := MeshEx.json_law.back v
  have e1 : Ssbh.json.de (MeshEx.json.ser v) = none := rfl
  rw [JsonFile.fromJson, h, e1]
  cases hb : MeshEx.kept.back v with
  | some x => rfl
  | none =>
    have e2 : Adj.json.de (MeshEx.json.ser v) = none := by
      have e3 : ∃ l, MeshEx.json.ser v = .obj l ∧ l.lookup "index_buffer" = none := ⟨_, rfl, by rfl⟩
      obtain ⟨l, e3, e4⟩ := e3
      rw [e3]
      simp only [Adj.json, JCodec.struct]
      split
      · rfl
      · have : ∀ {β : Type} {r : JRec β}, (r.and (.field "index_buffer" (JCodec.vec JCodec.i16))).de (fun n => l.lookup n) = none := by
          intro _ r
          simp only [JRec.and, JRec.field, e4]
          cases r.de (fun n => l.lookup n) <;> rfl
        rw [this]
        rfl
    rw [e2]
    rfl

theorem fromJson_adj (v : Adj) : JsonFile.fromJson (Adj.json.ser v) = (Adj.kept.back v).map .adj := by
  have h := Adj.json_law.back v
  have e1 : Ssbh.json.de (Adj.json.ser v) = none := rfl
  have e2 : MeshEx.json.de (Adj.json.ser v) = none := meshEx_needs rfl
  rw [JsonFile.fromJson, h, e1, e2]
  cases Adj.kept.back v <;> rfl

theorem fromJson_toJson (f : JsonFile) : JsonFile.fromJson f.toJson = fileKept.back f := by
  cases f with
  | ssbh v =>
    refine (fromJson_ssbh v).trans ?_
    exact back_variant (s := Ssbh.kept) (t := fileKept) (f := JsonFile.ssbh) rfl rfl rfl
  | meshEx v =>
    refine (fromJson_meshEx v).trans ?_
    exact back_variant (s := MeshEx.kept) (t := fileKept) (f := JsonFile.meshEx) rfl rfl rfl
  | adj v =>
    refine (fromJson_adj v).trans ?_
    exact back_variant (s := Adj.kept) (t := fileKept) (f := JsonFile.adj) rfl rfl rfl

/-! ## C63 -/

/-- C63: a file converted to JSON and back is what JSON keeps of it, or it is not accepted as any type. -/
theorem C63_round_trip (f : JsonFile) :
    (fileKept.fin f = true → JsonFile.fromJson f.toJson = some (fileKept.norm f)) ∧
    (fileKept.fin f = false → JsonFile.fromJson f.toJson = none) := by
  rw [fromJson_toJson, JSpec.back]
  exact ⟨fun h => by rw [h]; rfl, fun h => by rw [h]; rfl⟩

/-- C63: the file itself comes back exactly if JSON keeps all of it. -/
theorem C63_exact (f : JsonFile) :
    JsonFile.fromJson f.toJson = some f ↔ fileKept.fin f = true ∧ fileKept.norm f = f := by
  rw [fromJson_toJson, JSpec.back]
  cases fileKept.fin f <;> simp

/-- C63: what was read from JSON has the same JSON again. -/
theorem C63_same_json (f g : JsonFile) (h : JsonFile.fromJson f.toJson = some g) : g.toJson = f.toJson := by
  rw [fromJson_toJson, JSpec.back] at h
  cases hf : fileKept.fin f with
  | false => rw [hf] at h; cases h
  | true =>
    rw [hf] at h
    cases h
    cases f with
    | ssbh v => exact Ssbh.json_law.same v hf
    | meshEx v => exact MeshEx.json_law.same v hf
    | adj v => exact Adj.json_law.same v hf

/-- C63: the second time nothing changes. -/
theorem C63_stable (f g : JsonFile) (h : JsonFile.fromJson f.toJson = some g) : JsonFile.fromJson g.toJson = some g := by
  rw [C63_same_json f g h, h]

/-- C63: different files have different JSON if JSON keeps all of them. -/
theorem C63_injective (f g : JsonFile) (hf : JsonFile.fromJson f.toJson = some f)
    (hg : JsonFile.fromJson g.toJson = some g) (h : f.toJson = g.toJson) : f = g := by
  rw [h, hg] at hf
  exact (Option.some.inj hf).symm

/-- C63: the order of the entries in the objects of the text does not matter. -/
theorem C63_order (i j : J) (h : J.Reordered i j) : JsonFile.fromJson i = JsonFile.fromJson j := by
  simp only [JsonFile.fromJson, JOrd.reordered Ssbh.json h, JOrd.reordered MeshEx.json h, JOrd.reordered Adj.json h]

example : J.Reordered (.obj [("index_buffer", .arr [.num 3]), ("entries", .arr [])])
    (.obj [("entries", .arr []), ("index_buffer", .arr [.num 3])]) :=
  .step (.refl _) (.swap [] [] _ _ (by decide))

/-- The counts of a MeshEx or Adj file fit in their 32 bits. -/
def Counted : JsonFile → Prop
  | .ssbh _ => True
  | .meshEx v => countOf v.entries < 2 ^ 32 ∧ countOf v.entry_flags < 2 ^ 32 ∧ countOf v.mesh_object_groups < 2 ^ 32
  | .adj v => v.entries.length < 2 ^ 32

theorem read_written (f : JsonFile) (b : Bytes) (hc : Counted f)
    (hw : f.write = some b) : JsonFile.read f.extension b = .ok f := by
  cases f with
  | ssbh v =>
    have hv : v.write = .ok b := by
      simp only [JsonFile.write] at hw
      split at hw
      · rename_i h; cases hw; exact h
      · cases hw
    have h1 : (JsonFile.ssbh v).extension ≠ "adjb" := by cases v <;> simp [JsonFile.extension]
    have h2 : (JsonFile.ssbh v).extension ≠ "numshexb" := by cases v <;> simp [JsonFile.extension]
    rw [JsonFile.read, if_neg h1, if_neg h2, C01_ssbh_round_trip v b hv]
  | meshEx v =>
    have hv : v.write = .ok b := by
      simp only [JsonFile.write] at hw
      split at hw
      · rename_i h; cases hw; exact h
      · cases hw
    have := (C15_meshex_file v b hv hc.1 hc.2.1 hc.2.2).2.2
    rw [JsonFile.read, if_neg (by simp [JsonFile.extension]), if_pos (show (JsonFile.meshEx v).extension = "numshexb" from rfl), this]
  | adj v =>
    have hv : v.write = .ok b := by
      simp only [JsonFile.write] at hw
      split at hw
      · rename_i h; cases hw; exact h
      · cases hw
    rw [JsonFile.read, if_pos (show (JsonFile.adj v).extension = "adjb" from rfl), C17_adj_round_trip v hc b hv]

/-- C63: the file written for a JSON text is read back with the extension the tool gives it. -/
theorem C63_written (j : J) (f : JsonFile) (b : Bytes) (_ : JsonFile.fromJson j = some f) (hc : Counted f)
    (hw : f.write = some b) : JsonFile.read f.extension b = .ok f := read_written f b hc hw

/-- C63: a file, converted to JSON and back, has the content of the JSON. If JSON keeps all of what was read from the file,
the new file is the one which writing it directly gives. -/
theorem C63_convert (ext : String) (b b' : Bytes) (f g : JsonFile) (_ : JsonFile.read ext b = .ok f)
    (hj : JsonFile.fromJson f.toJson = some g) (hc : Counted g) (hw : g.write = some b') :
    JsonFile.read g.extension b' = .ok g ∧ g.toJson = f.toJson ∧ (fileKept.norm f = f → g = f ∧ f.write = some b') := by
  refine ⟨C63_written _ g b' hj hc hw, C63_same_json f g hj, fun hn => ?_⟩
  have : g = f := by
    rw [fromJson_toJson, JSpec.back, hn] at hj
    cases hf : fileKept.fin f with
    | false => rw [hf] at hj; cases hj
    | true => rw [hf] at hj; exact (Option.some.inj hj).symm
  exact ⟨this, this ▸ hw⟩

/-! ### Byte buffers -/

/-- `c` is the hexadecimal digit for `n`. -/
def HexDigit (n : Nat) (c : Char) : Prop :=
  "0123456789abcdef".toList[n]? = some c ∨ "0123456789ABCDEF".toList[n]? = some c

/-- Two digits for each byte. -/
inductive HexOf : Bytes → List Char → Prop
  | nil : HexOf [] []
  | cons (b : UInt8) (c d : Char) {bs : Bytes} {cs : List Char} : HexDigit (b.toNat / 16) c → HexDigit (b.toNat % 16) d →
    HexOf bs cs → HexOf (b :: bs) (c :: d :: cs)

theorem hexDigit_hexValue {n : Nat} (hn : n < 16) {c : Char} (h : HexDigit n c) : JCodec.hexValue c = some n := by
  have : ∀ n, n < 16 → ("0123456789abcdef".toList[n]?.bind JCodec.hexValue = some n ∧
      "0123456789ABCDEF".toList[n]?.bind JCodec.hexValue = some n) := by decide
  obtain ⟨h1, h2⟩ := this n hn
  rcases h with h | h
  · rw [h] at h1; exact h1
  · rw [h] at h2; exact h2

def hexCheck (k : Nat) : Bool :=
  match JCodec.hexValue (Char.ofNat k) with
  | none => true
  | some n => decide (n < 16) && ("0123456789abcdef".toList[n]? == some (Char.ofNat k) ||
      "0123456789ABCDEF".toList[n]? == some (Char.ofNat k))

theorem hexCheck_all : ∀ k, k < 103 → hexCheck k = true := by decide +kernel

theorem hexValue_hexDigit {n : Nat} {c : Char} (h : JCodec.hexValue c = some n) : n < 16 ∧ HexDigit n c := by
  have hc : c.toNat < 103 := by
    simp only [JCodec.hexValue] at h
    have le : ∀ {a b : Char}, a ≤ b → a.toNat ≤ b.toNat := fun h => h
    split at h
    · rename_i hh; have := le hh.2; simp at this; omega
    · split at h
      · rename_i hh; have := le hh.2; simp at this; omega
      · split at h
        · rename_i hh; have := le hh.2; simp at this; omega
        · cases h
  have e : Char.ofNat c.toNat = c := Char.ofNat_toNat c
  have := hexCheck_all c.toNat hc
  rw [hexCheck, e, h] at this
  simp only [Bool.and_eq_true, Bool.or_eq_true, beq_iff_eq, decide_eq_true_eq] at this
  exact this

theorem hexDecode_iff : ∀ (cs : List Char) (bs : Bytes), JCodec.hexDecode cs = some bs ↔ HexOf bs cs
  | [], bs => by
    constructor
    · intro h; cases h; exact .nil
    · intro h; cases h; rfl
  | [c], bs => by
    constructor
    · intro h; cases h
    · intro h; cases h
  | c :: d :: cs, bs => by
    rw [JCodec.hexDecode]
    constructor
    · intro h
      split at h
      · rename_i x y bs' hx hy hb
        cases h
        obtain ⟨h1, h1'⟩ := hexValue_hexDigit hx
        obtain ⟨h2, h2'⟩ := hexValue_hexDigit hy
        have e : (UInt8.ofNat (16 * x + y)).toNat = 16 * x + y := by
          rw [UInt8.toNat_ofNat']; exact Nat.mod_eq_of_lt (by omega)
        refine .cons _ c d ?_ ?_ ((hexDecode_iff cs bs').mp hb)
        · rw [e, show (16 * x + y) / 16 = x by omega]; exact h1'
        · rw [e, show (16 * x + y) % 16 = y by omega]; exact h2'
      · cases h
    · intro h
      cases h with
      | cons b _ _ h1 h2 h3 =>
        have hb := b.toNat_lt
        rw [hexDigit_hexValue (by omega) h1, hexDigit_hexValue (by omega) h2, (hexDecode_iff cs _).mpr h3]
        simp only
        rw [show 16 * (b.toNat / 16) + b.toNat % 16 = b.toNat by omega, UInt8.ofNat_toNat]

/-- C63: byte buffers are texts with two hexadecimal digits for each byte; exactly such texts are accepted, with small or
capital letters. -/
theorem C63_hex (b : Bytes) : (∃ s, JCodec.hex.ser b = .str s ∧ HexOf b s.toList) ∧
    ∀ s, JCodec.hex.de (.str s) = some b ↔ HexOf b s.toList := by
  have h : ∀ s, JCodec.hex.de (.str s) = some b ↔ HexOf b s.toList := fun s => hexDecode_iff s.toList b
  refine ⟨⟨_, rfl, (h _).mp ?_⟩, h⟩
  exact JLaw.hex.back b

example : JCodec.hex.de (.str "00fF7a") = some [0, 255, 122] := by decide

/-! ### What is lost -/

/-- C63: a JSON string with a zero character is accepted for a text of a file. The text read back from the file ends before
the zero character: `rest` is what follows the text in the file. -/
theorem C63_nul (s : String) (rest : Bytes) : JCodec.deTextBytes (.str s) = some (textBytes s) ∧
    scanCStr (textBytes s ++ 0 :: rest) = .ok (textBytes (cutNul s)) := by
  refine ⟨rfl, ?_⟩
  have key : ∀ b : Bytes, scanCStr (b ++ 0 :: rest) = .ok (b.takeWhile (· ≠ 0)) := by
    intro b
    induction b with
    | nil => simp [scanCStr]
    | cons x b ih =>
      rw [List.cons_append, scanCStr, List.takeWhile_cons]
      by_cases hx : x = 0
      · simp [hx]
      · rw [if_neg hx, ih, if_pos (by simpa using hx)]
  rw [key, ← fromBytes_textBytes]
  rfl

/-- C63: Modl, Nlst, Nufx, Shdr and Adj files have no floats, so their JSON is always accepted. -/
theorem C63_accepted (f : JsonFile)
    (h : (∃ v, f = .ssbh (.Modl v)) ∨ (∃ v, f = .ssbh (.Nlst v)) ∨ (∃ v, f = .ssbh (.Nufx v)) ∨ (∃ v, f = .ssbh (.Shdr v)) ∨
      ∃ v, f = .adj v) : ∃ g, JsonFile.fromJson f.toJson = some g := by
  refine ⟨fileKept.norm f, (C63_round_trip f).1 ?_⟩
  have plain : ∀ {α : Type} (x : α), JSpec.plain.fin x = true := fun _ => rfl
  have txt : ∀ (o : SsbhString), (JSpec.pointer JSpec.text).fin o = true := by
    intro o; cases o <;> rfl
  have txt2 : ∀ (o : Option SsbhString), (JSpec.pointer (JSpec.pointer JSpec.text)).fin o = true := by
    intro o
    cases o with
    | none => rfl
    | some o => cases o <;> rfl
  have list : ∀ {α : Type} {s : JSpec α} (l : List α), (∀ x, s.fin x = true) → (JSpec.list s).fin l = true := by
    intro α s l h; simp [JSpec.list, h]
  rcases h with ⟨v, rfl⟩ | ⟨v, rfl⟩ | ⟨v, rfl⟩ | ⟨v, rfl⟩ | ⟨v, rfl⟩
  · have h1 : ∀ x, Modl.ModlEntry.kept.fin x = true := fun x => by simp [Modl.ModlEntry.kept, txt, plain]
    cases v
    simp [fileKept, Ssbh.kept, Modl.kept, Modl.V17Data.kept, txt, txt2, list _ txt, list _ h1]
  · cases v
    simp [fileKept, Ssbh.kept, Nlst.kept, Nlst.V10Data.kept, list _ txt]
  · have h1 : ∀ x, Nufx.MaterialParameter.kept.fin x = true := fun x => by simp [Nufx.MaterialParameter.kept, txt, plain]
    have h2 : ∀ x, Nufx.VertexAttribute.kept.fin x = true := fun x => by simp [Nufx.VertexAttribute.kept, txt]
    have h3 : ∀ x, Nufx.UnkItem.kept.fin x = true := fun x => by simp [Nufx.UnkItem.kept, txt, list _ txt]
    have h4 : ∀ x, Nufx.ShaderStages.kept.fin x = true := fun x => by simp [Nufx.ShaderStages.kept, txt]
    have h5 : ∀ x, Nufx.ShaderProgramV0.kept.fin x = true := fun x => by
      simp [Nufx.ShaderProgramV0.kept, txt, h4, list _ h1]
    have h6 : ∀ x, Nufx.ShaderProgramV1.kept.fin x = true := fun x => by
      simp [Nufx.ShaderProgramV1.kept, txt, h4, list _ h1, list _ h2]
    cases v with
    | V0 v => simp [fileKept, Ssbh.kept, Nufx.kept, Nufx.NufxV0.kept, list _ h3, list _ h5]
    | V1 v => simp [fileKept, Ssbh.kept, Nufx.kept, Nufx.NufxV1.kept, list _ h3, list _ h6]
  · have h1 : ∀ x, Shdr.Shader.kept.fin x = true := fun x => by
      simp [Shdr.Shader.kept, Shdr.ShaderStage.kept, txt, plain]
    cases v
    simp [fileKept, Ssbh.kept, Shdr.kept, Shdr.V12Data.kept, list _ h1]
  · have h1 : ∀ x, Adj.AdjEntry.kept.fin x = true := fun x => by simp [Adj.AdjEntry.kept, plain]
    simp [fileKept, Adj.kept, list _ h1, list _ plain]

/-- C63: Adj files have no texts either: nothing is ever lost. -/
theorem C63_adj (v : Adj) : JsonFile.fromJson (JsonFile.adj v).toJson = some (.adj v) := by
  obtain ⟨g, hg⟩ := C63_accepted (.adj v) (.inr (.inr (.inr (.inr ⟨v, rfl⟩))))
  have hn : fileKept.norm (.adj v) = .adj v := by
    have h1 : Adj.AdjEntry.kept.norm = id := rfl
    simp [fileKept, Adj.kept, JSpec.list, h1, JSpec.plain]
  rw [fromJson_toJson, JSpec.back, hn] at hg ⊢
  cases hf : fileKept.fin (.adj v) with
  | false => rw [hf] at hg; cases hg
  | true => rfl

example : JsonFile.fromJson (.obj [("index_buffer", .arr [.num 3]), ("entries", .arr [])]) = some (.adj ⟨[], [3]⟩) :=
  (C63_order _ (.obj [("entries", .arr []), ("index_buffer", .arr [.num 3])])
    (.step (.refl _) (.swap [] [] _ _ (by decide)))).trans (C63_adj ⟨[], [3]⟩)

def jsonNan : JsonFile := .ssbh (.Skel (.V10 {
  bone_entries := [], world_transforms := [], inv_world_transforms := [], inv_transforms := []
  transforms := [⟨⟨0x7fc00000, 0, 0, 0⟩, ⟨0, 1, 0, 0⟩, ⟨0, 0, 1, 0⟩, ⟨0, 0, 0, 1⟩⟩] }))

theorem jsonNan_write : ∃ b, jsonNan.write = some b := Option.isSome_iff_exists.mp (by decide +kernel)

/-- C63: a Skel file with a NaN in a matrix, which is read without problems, is not accepted after the conversion: nothing is
written. -/
theorem C63_nan : ∃ (f : JsonFile) (b : Bytes), f.write = some b ∧ JsonFile.read "nusktb" b = .ok f ∧
    JsonFile.fromJson f.toJson = none := by
  obtain ⟨b, hb⟩ := jsonNan_write
  refine ⟨jsonNan, b, hb, ?_, (C63_round_trip _).2 (by decide)⟩
  exact read_written jsonNan b trivial hb

def jsonModl (name : SsbhString) (anim : Option SsbhString) : JsonFile := .ssbh (.Modl (.V17 {
  model_name := name, skeleton_file_name := str "", material_file_names := [str "a.numatb"],
  animation_file_name := anim, mesh_file_name := str "model.numshb", entries := [] }))

/-- C63: a name which is not UTF-8 becomes empty, and a pointer to a null string becomes null. -/
theorem C63_changed :
    JsonFile.fromJson (jsonModl (some ⟨[0xff], by decide⟩) none).toJson = some (jsonModl (str "") none) ∧
    JsonFile.fromJson (jsonModl (str "a") (some none)).toJson = some (jsonModl (str "a") none) := by
  constructor
  · rw [(C63_round_trip _).1 (by decide)]
    decide +kernel
  · rw [(C63_round_trip _).1 (by decide)]
    decide +kernel

/-- A file for which nothing is lost. -/
example : JsonFile.fromJson (JsonFile.ssbh exModl).toJson = some (.ssbh exModl) :=
  (C63_exact _).mpr (by decide +kernel)

example : JsonFile.fromJson (JsonFile.ssbh exMesh).toJson = some (.ssbh exMesh) :=
  (C63_exact _).mpr (by decide +kernel)

end Verif.Props
