import Verif.Props.JsonParts
import Verif.Props.JsonPipeline
/-!
# C110: changing any field of a file through its JSON
-/

namespace Verif.Props
open Verif Verif.Json

/-- The names of the top of a document. -/
def topNames : J → List String
  | .obj l => l.map (·.1)
  | _ => []

theorem put_top (v j : J) {p : List Nat} (hp : p ≠ []) : topNames (J.put v p j) = topNames j := by
  cases p with
  | nil => exact absurd rfl hp
  | cons n p =>
    cases j with
    | obj l => exact Shape.modify_keys _ l n
    | _ => rfl

/-- The extension of the files of a format. -/
def extensionOf (l : List String) : Option String :=
  (l.head?).bind fun n => [("Hlpb", "nuhlpb"), ("Matl", "numatb"), ("Modl", "numdlb"), ("Mesh", "numshb"), ("Skel", "nusktb"),
    ("Anim", "nuanmb"), ("Nlst", "nulstb"), ("Nrpd", "nurpdb"), ("Nufx", "nuflxb"), ("Shdr", "nushdb")].lookup n

theorem ssbh_top (v : Ssbh) : extensionOf (topNames (Ssbh.json.ser v)) = some (JsonFile.ssbh v).extension := by
  cases v <;> rfl

/-- The type of a file and the names of the top of its JSON give its extension. -/
theorem extension_top (f g : JsonFile) (h1 : libType f = libType g) (h2 : topNames f.toJson = topNames g.toJson) :
    f.extension = g.extension := by
  cases f <;> cases g <;> first
    | rfl
    | exact Option.some.inj (by rw [← ssbh_top, ← ssbh_top]; exact congrArg extensionOf h2)
    | exact absurd h1 (show ¬ ((_ : String) = _) by simp [libType])

/-- C110: a file of any format is converted with ssbh_lib_json, the text of any part of the JSON is replaced, and the JSON is converted
back. If the shape of the part does not accept the new value, nothing is written. Otherwise the new file has the extension of the original, it
is read as a file `g` whose JSON is the JSON of the original with only this part replaced, and so converting it again shows exactly the
edit. The original and all other files are kept. -/
theorem C110_program (P : Nat → Nat × Int) (hP : Prints P) (p : Path) (d : Disk) (ext : String) (b : Bytes) (f : JsonFile) (x : J)
    (π : List Nat) (he : p.extension = some ext) (hj : ext ≠ "json") (hb : d.files p = some b) (ho : JsonFile.read ext b = .ok f)
    (hk : fileKept.fin f = true) (hπ : π ≠ []) (hx : f.toJson.get π = some x)
    (hm : d.mayCreate (jsonOf p) = true ∧ d.mayCreate (backOf p f.extension) = true) :
    ∃ (s0 s : Shape) (d1 : Disk) (pre t post : List Char), (libType f, s0) ∈ libShapes ∧ s0.part f.toJson π = some s ∧
      libMain ⟨toText P, fromText⟩ p none d = (.done, d1) ∧
      Holds d d1 (jsonOf p) (textBytes (String.ofList (pre ++ (t ++ post)))) ∧ fromText (String.ofList t) = some x ∧
      ∀ (t' : List Char) (v : J), fromText (String.ofList t') = some v → π.length + v.depth ≤ 127 →
      ∀ d2, Holds d1 d2 (jsonOf p) (textBytes (String.ofList (pre ++ (t' ++ post)))) →
        (s.canon v = none → libMain ⟨toText P, fromText⟩ (jsonOf p) none d2 = (.nothing, d2)) ∧
        ∀ w, s.canon v = some w → ∃ g : JsonFile, libType g = libType f ∧ g.extension = f.extension ∧ g.toJson = J.put w π f.toJson ∧
          (g.write = none → (libMain ⟨toText P, fromText⟩ (jsonOf p) none d2).1 = .panic) ∧
          ∀ b', g.write = some b' → ∃ d3, libMain ⟨toText P, fromText⟩ (jsonOf p) none d2 = (.done, d3) ∧
            d3.files (backOf p f.extension) = some b' ∧ d3.files p = some b ∧
            (∀ q, q ≠ jsonOf p → q ≠ backOf p f.extension → d3.files q = d.files q) ∧
            (Counted g → JsonFile.read f.extension b' = .ok g) := by
  have hp := name_ne he
  rcases C74_lib_show ⟨toText P, fromText⟩ p none d ext he hj with ⟨f', d1, h0, h1, hh1⟩ | ⟨_, h0⟩ | ⟨_, h0⟩
  · rw [JsonFile.fromFile, hb] at h0
    simp only [ho, Option.some.injEq] at h0
    subst h0
    simp only [Option.getD_none, jsonOf_eq] at hh1
    obtain ⟨s0, s, e1, e2, pre, t, post, e3, e4, e5⟩ := C109_lib_text f _ x π hk (C103_lib P hP f) hπ hx
    refine ⟨s0, s, d1, pre, t, post, e1, e2, h1, by rw [← e3, String.ofList_toList]; exact hh1, e4, fun t' v ht hd d2 hh2 => ?_⟩
    have e6 := e5 t' v ht hd
    have run : libMain ⟨toText P, fromText⟩ (jsonOf p) none d2 =
        match (fromText (String.ofList (pre ++ (t' ++ post)))).bind JsonFile.fromJson with
        | none => (.nothing, d2)
        | some f => match f.writeToFile (backOf p f.extension) d2 with
          | (true, d) => (.done, d)
          | (false, d) => (.panic, d) := by
      unfold libMain
      simp only [jsonOf_extension hp, if_true, hh2.content, Option.bind_some, fromUtf8_textBytes, Option.getD_none, jsonOf_with hp]
      rfl
    constructor
    · intro hv
      rw [hv] at e6
      rw [run, Option.map_eq_none_iff.mp e6]
    · intro w hw
      rw [hw] at e6
      obtain ⟨g, hg, e7⟩ := Option.map_eq_some_iff.mp e6
      obtain ⟨g1, g2⟩ : libType g = libType f ∧ g.toJson = J.put w π f.toJson := by simpa using e7
      have g3 : g.extension = f.extension := extension_top g f g1 (by rw [g2]; exact put_top w _ hπ)
      have hm' : d2.mayCreate (backOf p f.extension) = true := by rw [hh2.rights, hh1.rights]; exact hm.2
      refine ⟨g, g1, g3, g2, fun hn => ?_, fun b' hb' => ?_⟩
      · rw [run, hg]
        simp only [g3]
        simp [JsonFile.writeToFile, Disk.create, hm', hn]
      · obtain ⟨d3, h7, hh3, -⟩ := C74_save g b' (backOf p f.extension) d2 hb' hm'
        refine ⟨d3, ?_, hh3.content, ?_, fun q hq1 hq2 => ?_, fun hc => by rw [← g3]; exact read_written g b' hc hb'⟩
        · rw [run, hg]
          simp only [g3, h7]
        · rw [hh3.others _ (backOf_ne p _).symm, hh2.others _ (jsonOf_ne p).symm, hh1.others _ (jsonOf_ne p).symm, hb]
        · rw [hh3.others q hq2, hh2.others q hq1, hh1.others q hq1]
  · rw [JsonFile.fromFile, hb] at h0
    simp only [ho, reduceCtorEq] at h0
  · simp only [Option.getD_none, jsonOf_eq] at h0
    rw [hm.1] at h0
    cases h0

/-- The type of data gives the extension. -/
theorem data_extension_type (f g : DataFile) (h : dataType f = dataType g) : f.extension = g.extension := by
  cases f <;> cases g <;> first
    | rfl
    | exact absurd h (show ¬ ((_ : String) = _) by simp [dataType])

/-- C110: the same with ssbh_data_json, which panics if the value is not accepted. The new file is what saving the data `g` gives whose JSON
is the JSON of the original with only this part replaced. -/
theorem C110_data (P : Nat → Nat × Int) (hP : Prints P) (O : DataOps) (p : Path) (d : Disk) (ext : String) (b : Bytes) (f : DataFile) (x : J)
    (π : List Nat) (he : p.extension = some ext) (hb : d.files p = some b) (ho : Opens O ext b f)
    (hk : fileFinite f = true) (hπ : π ≠ []) (hx : f.toJson.get π = some x)
    (hm : d.mayCreate (jsonOf p) = true ∧ d.mayCreate (backOf p ext) = true) :
    ∃ (s0 s : Shape) (d1 : Disk) (pre t post : List Char), (dataType f, s0) ∈ dataShapes ∧ s0.part f.toJson π = some s ∧
      dataMain ⟨toText P, fromText⟩ O p none d = (.done, d1) ∧
      Holds d d1 (jsonOf p) (textBytes (String.ofList (pre ++ (t ++ post)))) ∧ fromText (String.ofList t) = some x ∧
      ∀ (t' : List Char) (v : J), fromText (String.ofList t') = some v → π.length + v.depth ≤ 127 →
      ∀ d2, Holds d1 d2 (jsonOf p) (textBytes (String.ofList (pre ++ (t' ++ post)))) →
        (s.canon v = none → dataType f ≠ "ModlData" → dataType f ≠ "MatlData" →
          dataMain ⟨toText P, fromText⟩ O (jsonOf p) none d2 = (.panic, d2)) ∧
        ∀ w, s.canon v = some w → ∃ g : DataFile, dataType g = dataType f ∧ g.toJson = J.put w π f.toJson ∧
          (∀ e, g.save O = .error e → (dataMain ⟨toText P, fromText⟩ O (jsonOf p) none d2).1 = .panic) ∧
          ∀ b', g.save O = .ok b' → ∃ d3, dataMain ⟨toText P, fromText⟩ O (jsonOf p) none d2 = (.done, d3) ∧
            d3.files (backOf p ext) = some b' ∧ (backOf p ext).extension = some ext ∧ d3.files p = some b ∧
            ∀ q, q ≠ jsonOf p → q ≠ backOf p ext → d3.files q = d.files q := by
  have hp := name_ne he
  have hx' := data_extension f
  have hxe := opens_extension ho
  subst hxe
  rcases C74_data_show ⟨toText P, fromText⟩ O p none d _ he hx'.1 with ⟨b2, g, d1, hb2, hg, h1, hh1⟩ | ⟨_, _, _, hn⟩
  · rw [hb] at hb2
    cases hb2
    have hgf : g.toJson = f.toJson := by
      have e1 := (C64_shown O f.extension b f.toJson).mpr ⟨_, ho, rfl⟩
      have e2 := (C64_shown O f.extension b g.toJson).mpr ⟨g, hg, rfl⟩
      rw [e1] at e2
      exact (DataFile.Shown.json.inj e2).symm
    rw [hgf] at hh1
    simp only [Option.getD_none, jsonOf_eq] at hh1
    have ht := C103_data P hP f (C103_sized O _ b _ (.inl ho))
    obtain ⟨s0, s, e1, e2, pre, t, post, e3, e4, e5⟩ := C109_data_text f _ x π hk ht hπ hx
    refine ⟨s0, s, d1, pre, t, post, e1, e2, h1, by rw [← e3, String.ofList_toList]; exact hh1, e4, fun t' v ht hd d2 hh2 => ?_⟩
    obtain ⟨e6, e7⟩ := e5 t' v ht hd
    have hm' : d2.mayCreate (backOf p f.extension) = true := by rw [hh2.rights, hh1.rights]; exact hm.2
    have run : dataMain ⟨toText P, fromText⟩ O (jsonOf p) none d2 =
        match (fromText (String.ofList (pre ++ (t' ++ post)))).bind DataFile.fromJson with
        | none => (.panic, d2)
        | some f => match f.writeToFile O (backOf p f.extension) d2 with
          | (true, d) => (.done, d)
          | (false, d) => (.panic, d) := by
      unfold dataMain
      simp only [jsonOf_extension hp, if_true, hh2.content, Option.bind_some, fromUtf8_textBytes, Option.getD_none, jsonOf_with hp]
      rfl
    constructor
    · intro hv k1 k2
      rw [run, e7 hv k1 k2]
    · intro w hw
      obtain ⟨g, hg, e8⟩ := Option.map_eq_some_iff.mp (e6 w hw)
      obtain ⟨g1, g2⟩ : dataType g = dataType f ∧ g.toJson = J.put w π f.toJson := by simpa using e8
      have g3 : g.extension = f.extension := data_extension_type g f g1
      refine ⟨g, g1, g2, fun e hs => ?_, fun b' hb' => ?_⟩
      · rw [run, hg]
        cases hw : g.writeToFile O (backOf p g.extension) d2 with
        | mk r d' =>
          cases r with
          | false => simp only [hw]
          | true =>
            exfalso
            rcases save_convert O g with ⟨c1, _⟩ | ⟨m, c, c1, c2, c3, _⟩ | ⟨m, c, c1, c2, c3, _⟩
            · simp [DataFile.writeToFile, c1] at hw
            · rw [c3] at hs; cases hs
            · rw [DataFile.writeToFile, c1] at hw
              obtain ⟨c', hc', _⟩ := C74_saved _ _ _ _ hw
              rw [c2] at hc'
              cases hc'
      · obtain ⟨d3, h7, hh3⟩ := C74_data_save O g b' (backOf p f.extension) d2 hb' hm'
        refine ⟨d3, ?_, hh3.content, (C74_extension_of _ _).mpr ⟨p.name, hp, hx'.2, rfl⟩, ?_, fun q hq1 hq2 => ?_⟩
        · rw [run, hg]
          simp only [g3, h7]
        · rw [hh3.others _ (backOf_ne p _).symm, hh2.others _ (jsonOf_ne p).symm, hh1.others _ (jsonOf_ne p).symm, hb]
        · rw [hh3.others q hq2, hh2.others q hq1, hh1.others q hq1]
  · have := hn ⟨b, _, hb, ho⟩
    simp only [Option.getD_none, jsonOf_eq] at this
    rw [hm.1] at this
    cases this

/-- The hypotheses are met: the name of a model is replaced by hand. -/
example : ∃ (b : Bytes) (d1 d2 : Disk) (t : String) (g : JsonFile), (jsonModl (str "model") none).write = some b ∧
    libMain ⟨toText shortest, fromText⟩ ⟨"a".toList, "model.numdlb".toList⟩ none (exFolder b) = (.done, d1) ∧
    Holds d1 d2 ⟨"a".toList, "model.numdlb.json".toList⟩ (textBytes t) ∧
    g.toJson = J.put (.str "é") [0, 0, 0] (jsonModl (str "model") none).toJson ∧ g.extension = "numdlb" ∧
    ∀ b', g.write = some b' → ∃ d3, libMain ⟨toText shortest, fromText⟩ ⟨"a".toList, "model.numdlb.json".toList⟩ none d2 = (.done, d3) ∧
      d3.files ⟨"a".toList, "model.numdlb.numdlb".toList⟩ = some b' ∧ (Counted g → JsonFile.read "numdlb" b' = .ok g) := by
  obtain ⟨b, hb⟩ : ∃ b, (jsonModl (str "model") none).write = some b := Option.isSome_iff_exists.mp (by decide +kernel)
  have ho : JsonFile.read "numdlb" b = .ok (jsonModl (str "model") none) := read_written (jsonModl (str "model") none) b trivial hb
  have hd : (exFolder b).files ⟨"a".toList, "model.numdlb".toList⟩ = some b := rfl
  obtain ⟨s0, s, d1, pre, t, post, h1, h2, h3, h4, h5, h6⟩ := C110_program shortest shortest_prints ⟨"a".toList, "model.numdlb".toList⟩
    (exFolder b) "numdlb" b (jsonModl (str "model") none) (.str "model") [0, 0, 0] (by decide) (by decide) hd ho (by decide +kernel) (by simp)
    (by rfl) ⟨rfl, rfl⟩
  have hs : s0 = Ssbh.shape := by
    simpa only [libShapes, jsonModl, libType, List.mem_cons, Prod.mk.injEq, String.reduceEq, false_and, true_and, or_false,
      List.not_mem_nil] using h1
  subst hs
  cases h2.symm.trans (show Ssbh.shape.part (jsonModl (str "model") none).toJson [0, 0, 0] = some (.opt .ctext) by rfl)
  obtain ⟨-, h7⟩ := h6 "\"\\u00e9\"".toList (.str "é") (by rw [String.ofList_toList]; exact reads (by decide +kernel)) (by decide)
    _ (holds_set _ _ _)
  obtain ⟨g, _, g2, g3, _, g5⟩ := h7 (.str "é") (by rfl)
  refine ⟨b, d1, _, String.ofList (pre ++ ("\"\\u00e9\"".toList ++ post)), g, hb, h3, holds_set _ _ _, g3, g2, fun b' hb' => ?_⟩
  obtain ⟨d3, e1, e2, _, _, e5⟩ := g5 b' hb'
  exact ⟨d3, e1, e2, e5⟩

/-- The same with the data of a model: the material of its entry. -/
example (O : DataOps) : ∃ (b : Bytes) (d1 d2 : Disk) (g : DataFile), Opens O "numdlb" b modlData ∧
    dataMain ⟨toText shortest, fromText⟩ O ⟨"a".toList, "model.numdlb".toList⟩ none (exFolder b) = (.done, d1) ∧
    g.toJson = J.put (.str "skin") [7, 0, 2] modlData.toJson ∧ dataType g = "ModlData" ∧
    ∀ b', g.save O = .ok b' → ∃ d3, dataMain ⟨toText shortest, fromText⟩ O ⟨"a".toList, "model.numdlb.json".toList⟩ none d2 = (.done, d3) ∧
      d3.files ⟨"a".toList, "model.numdlb.numdlb".toList⟩ = some b' := by
  obtain ⟨b, hb⟩ : ∃ b, ModlData.write ⟨1, 7, "model", "model.nusktb", ["model.numatb"], none, "model.numshb", [⟨"head", 0, "mat"⟩]⟩ =
    .ok b := isOk_iff.mp (by decide +kernel)
  have ho : Opens O "numdlb" b modlData := by
    refine ⟨rfl, (C45_modl _ b hb).trans (congrArg Except.ok ?_)⟩
    decide
  have hd : (exFolder b).files ⟨"a".toList, "model.numdlb".toList⟩ = some b := rfl
  obtain ⟨s0, s, d1, pre, t, post, h1, h2, h3, h4, h5, h6⟩ := C110_data shortest shortest_prints O ⟨"a".toList, "model.numdlb".toList⟩
    (exFolder b) "numdlb" b modlData (.str "mat") [7, 0, 2] (by decide) hd ho rfl (by simp) rfl ⟨rfl, rfl⟩
  have hs : s0 = ModlData.shape := by
    simpa only [dataShapes, modlData, dataType, List.mem_cons, Prod.mk.injEq, String.reduceEq, false_and, true_and, or_false, false_or,
      List.not_mem_nil] using h1
  subst hs
  cases h2.symm.trans (show ModlData.shape.part modlData.toJson [7, 0, 2] = some .text from rfl)
  obtain ⟨-, h7⟩ := h6 "\"skin\"".toList (.str "skin") (by rw [String.ofList_toList]; exact reads (by decide +kernel)) (by decide)
    _ (holds_set _ _ _)
  obtain ⟨g, g1, g2, _, g4⟩ := h7 (.str "skin") rfl
  refine ⟨b, d1, d1.set ⟨"a".toList, "model.numdlb.json".toList⟩ (textBytes (String.ofList (pre ++ ("\"skin\"".toList ++ post)))), g,
    ho, h3, g2, g1, fun b' hb' => ?_⟩
  obtain ⟨d3, e1, e2, _⟩ := g4 b' hb'
  exact ⟨d3, e1, e2⟩

end Verif.Props
