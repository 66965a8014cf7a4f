# Formal model of ssbh_lib / ssbh_data

Source under study: `/repo` (ultimate-research/ssbh_lib), read as text only. Every model definition cites the file and
lines it comes from. `properties.jsonl` lists the properties, `MANIFEST.json` (written by `tools/manifest.py`) the theorems
for each, `seeded/LOG.jsonl` the wrong programs which the theorems were tried against.

## Trusted base

* The Lean 4 kernel. Every theorem of the manifest depends on at most `propext`, `Classical.choice` and `Quot.sound`;
  building `lean/Verif/Axioms.lean` prints the axioms of each of them. There are no own axioms and no proofs by the compiler.
* The reading of the Rust code. The model is not extracted from it.
* Behaviour of dependencies, modelled by hand: `std::io::Cursor<Vec<u8>>` (overwrite/extend, zero fill on a write past
  the end, seek anywhere), binrw's derived readers (fields in order, little endian, `pad_after` = relative seek,
  `align_before` = seek to the next multiple of the position in the stream,
  `pre_assert` and magics select enum variants, `count`, `until_eof`), `bitvec` Lsb0 loads and stores,
  `modular_bitfield` as raw bits, UTF-8 decoding (`String::from_utf8` as Lean core's own decoder), `HashMap`/`HashSet` used
  as lookup tables, stable sorting.
* Alignment in memory (`std::mem::align_of`), which decides where some pointers point: that of a struct or enum is taken to be the
  largest one of its fields, the number of a variant to have one byte, that of a bitfield to be 1. `p64`, `wasm32`, `i686` in
  `Derive/Model.lean` are the alignments of numbers and pointers on x86-64/AArch64, 32 bit WebAssembly and 32 bit x86 (System V).
  C01 to C69 are about 64 bit platforms.
* Floats: `Float/Ieee.lean` models binary16/32/64 on bit patterns with one rounding to nearest even per operation, `as`
  conversions as documented for Rust, `f32::min/max` (of two equal zeros the first is taken, Rust leaves it open), and
  `half::f16` conversions as documented (a NaN becomes quiet and keeps the top of its payload; not checked against the crate).
  The NaN that an operation produces is a fixed one. `Float/*Laws.lean` prove the rounding error of the operations. That Rust
  computes like this (no excess precision) is trusted.
* `tools/gen_formats.py` wrote `lean/Verif/Formats/*.lean` (apart from Ssbh, MeshEx, Adj, Extent, Move) from the Rust type
  definitions, `tools/gen_extent.py` and `tools/gen_move.py` the instances in `Formats/Extent.lean` and `Formats/Move.lean`, `tools/gen_image.py` the description in `Image/Formats.lean` and the instances in `Image/FormatLaws.lean`, and `tools/gen_derive.py` the definitions in `Derive/Formats.lean` and the instances in `Derive/FormatsSame.lean` and `Derive/FormatsPort.lean`. The generated text is what counts and is
  checked like everything else.

## Layout

| directory | content |
|-----------|---------|
| `Verif/Lib` | byte level: writer, codecs, the codec law and its proofs, files |
| `Verif/Formats` | the file types of `ssbh_lib/src/formats` as codecs |
| `Verif/Data` | the types of `ssbh_data` and their conversions; files ending in `Laws` hold helper lemmas |
| `Verif/Json` | JSON values, the derived serde implementations, what JSON keeps (`Spec`, `Kept`, `Finite`), ssbh_lib_json, ssbh_data_json |
| `Verif/Tools` | files on a disk, the programs with their arguments |
| `Verif/Layout` | descriptions of the bytes of files (`Spec`, `Formats`, `Files`), that the readers follow them |
| `Verif/Image` | descriptions of written files (`Spec`, `Formats`, `MeshEx`, `Adj`), that the writers produce them |
| `Verif/Derive` | the derive macro: types as data and the code generated for them (`Model`), what they should look like (`Spec`), the definitions of `ssbh_lib` (`Formats`), that the codecs of `Formats` are the derived ones (`FormatsSame`), other platforms (`Platform`) |
| `Verif/Float` | model of floats, their laws, the value of a bit pattern (`ValueSpec`) |
| `Verif/Props` | specifications, property theorems (`C..`), examples that meet their conditions, counterexamples |

## Which code is modelled

| code | model | not modelled |
|------|-------|--------------|
| `ssbh_write`, `ssbh_write_derive` | `Lib/Core`, `Lib/Codecs`; the derive macro for any type in `Derive/Model`, its attributes in `Derive/Attributes` | generic parameters |
| `ssbh_lib/src/{arrays,strings,enums,lib}.rs` | `Lib/Codecs`, `Lib/File`, `Formats/Ssbh`; `from_file`/`write_to_file` in `Tools/Disk` | `Debug`; serde is in `Json/*` |
| `ssbh_lib/src/formats/*.rs` | `Formats/*`; `Display`, `FromStr`, `from_repr`, `iter` of the enums in `Lib/EnumNames` | `Default` |
| `ssbh_data/src/{modl,hlpb,matl,meshex,adj,skel}_data.rs` | `Data/*`; derived `PartialEq` in `Data/Compare` | `Default`; computation of a sphere around points or spheres (a parameter, see C91); matrix arithmetic (a parameter) |
| `ssbh_data/src/anim_data.rs` and `anim_data/*` | `Data/Compression`, `BitUtils`, `AnimBuffers`, `AnimData`, `AnimV12` | the text printed when version 1.2 is read |
| `ssbh_data/src/mesh_data.rs` and `mesh_data/*` | `Data/VectorData`, `Data/MeshData`, `Data/Bounding` | smallest box and sphere of points, smooth normals and tangents (in another crate) |
| `ssbh_data/src/shdr_data.rs` | `Data/ShdrData` | the result of `from_utf8_lossy` for names that are not UTF-8 (parameter `Lossy`); fields that are read and dropped |
| `ssbh_lib_json/src/main.rs`, serde implementations of `ssbh_lib` | `Json/*`, `Tools/Disk` | messages, feature `serde` without `serde_hex` |
| `ssbh_data_json/src/main.rs`, serde implementations of `ssbh_data` | `Json/Data*`, `Tools/Disk` | messages |
| `ssbh_test/src/main.rs` | `Tools/Test` | walk through the folders, threads, the text printed |
| unit tests | none | all |

## Modelling decisions (apply everywhere)

* Bytes are `UInt8`, integer fields are `UInt8/16/32/64` (or `Int16/32`). A float is its bit pattern (`F32 = UInt32`).
* Float arithmetic is a parameter where the result does not depend on it: `FloatOps` (compression of tracks, comparisons),
  `FloatConv` (half floats and bytes of vertex attributes), `MatOps` (4x4 matrices). Theorems that take such a parameter hold
  for every choice of it. C29, C50, C52 to C55, C84 to C86, C88 and C97 are about the floats of the code: they use the instances
  `Ieee.ops` and `Ieee.conv`. Errors are stated with `value`, the textbook reading of the 32 bits as a rational number.
  `FloatOps.checked` tells whether integer overflow panics (debug builds, and `Ieee.ops`) or wraps (release builds).
  C25 runs the same two functions over the rational numbers. C37 uses exact rational matrices.
* The writer state is (trace of writes, position, data pointer); the output is the replay of the trace on an
  empty cursor. The trace also records pointers and structure extents, so layout properties (overlap, alignment, order) can be
  stated.
* `data_ptr` and positions are unbounded naturals. Storing an offset or count that does not fit in
  64 bits is an explicit error value (`WErr.overflow`), where the real code would panic or wrap.
* `as` casts wrap as in Rust: in particular 32 bit offsets, strides and counts of Mesh, Anim, Adj and MeshEx. Theorems
  about them have explicit conditions (file or buffer below 4 GiB) or describe the wrapped result.
* A zero length write does not extend the buffer. (Recent std pads on it when the position is
  past the end. This only concerns an empty byte buffer as last item.)
* A string is a byte list together with a proof that it has no zero byte, as ensured by the constructors of the private
  field (`from_bytes`, `BinRead`). The `serde` deserializer does not ensure it: for such
  texts the JSON model gives an error, and `C63_nul` says what the real code does.
* JSON: a value is a tree (`J`). Trusted about serde: derived structs take objects in any order, or arrays,
  ignore unknown entries, reject double and (except for `Option`) missing ones; enums are externally tagged; floats that are not finite are `null`.
  The text of a value (`Json/Text`, `Json/Numbers`) is modelled after the published source of serde_json 1 without optional features
  (`to_string_pretty`, `from_str`, its numbers with the table of powers of ten) and of ryu (layout of floats). That this source is what is linked is
  trusted. Which decimal is printed for a float is a parameter with the contract `Prints`, so other shortest printers are covered too. Text is parsed
  to a tree that gets its type afterwards, while the crate does both at once: entries that no type has are checked more strictly here
  (the crate skips their values without the limits for nesting and large numbers, and with lone surrogates), and
  numbers of floats are rounded to 32 bits at once. Programs on disk (C74) have the text as a parameter; C103 has them with this text.
* Disk: a map from paths to contents. Different paths are different files (no links, no `..`), which files may be created does
  not change during a run, `File::create` makes the file empty, writing to a created file does not fail, and nobody else writes.
  `Tools/Steps` (C98, C99) has single calls instead, any of which may fail or write fewer bytes, and any number of programs. There calls are
  atomic, what was written is seen by all programs and is not lost, and files are not removed or renamed. That `write_all` is a loop of `write` which repeats interrupted
  calls and fails on 0 bytes, and that `std::fs::read` reads until a call gives no bytes, is trusted about the standard library.
* Readers are functions `bytes -> position -> error or (value, position)`; the reader position after an
  error is not modelled. Errors of conversions keep their kind, errors of reading only as far as properties need it.
* Rust panics are explicit error values (`none` or an error constructor), never a default value.
* `Vec` lengths are unbounded naturals (the real ones are below 2^63).

## Plan per property

| id | what is modelled | how it is proved |
|----|------------------|------------------|
| C01 | `SsbhWrite`/`BinRead` pairs as combinators (`Codec`), each format as a composition | a law (`Lawful`) preserved by every combinator, induction over lists |
| C02 | same | corollary of C01 |
| C03 | same | read-back law only uses the written chunks |
| C04 | trace of writes | region invariant in `Lawful` |
| C05 | pointer and extent events in the trace | same invariant |
| C06 | replay of a trace | induction over the trace |
| C07 | `RelPtr64`, `SsbhArray`, `SsbhEnum64` writers | case analysis in any state |
| C08 | file reader | all byte strings, case analysis |
| C09 | `Versioned`, `write_ssbh_file` | all byte strings |
| C10 | `absolute_offset_checked`, pointer readers | arithmetic |
| C11 | `read_buffer` | arithmetic on lists |
| C12 | `read_ssbh_array`, `read_elements` | induction over count |
| C13 | `CString` | induction over bytes |
| C14 | `Ptr<P, T>` | `Lawful` instance + error case |
| C15 | `MeshEx` writer and reader | `Lawful` + file level argument |
| C16 | `align_after` | arithmetic |
| C17 | `Adj` reader and writer | induction |
| C18 | `AdjData` conversions | induction over entries |
| C19 | `triangle_adjacency` | refinement to a direct specification |
| C20 | `BitReader`, `BitWriter` | induction over the sequence |
| C21 | `compress`/`decompress` per type | per type bit count equations |
| C22, C23, C24 | compressed buffers | induction over frames; counterexamples for the false parts |
| C25 | `compress_f32`/`decompress_f32` over rationals | arithmetic; the functions are written once for any arithmetic and shared with C52 |
| C26 | uncompressed track encodings | induction |
| C27, C28, C29 | `create_anim`, `read_groups_v20` | induction over the tree; C29 with exactness of small whole floats |
| C30 | size formulas of both encodings | arithmetic |
| C31, C32, C33, C35, C38 | conversions between `*_data` and `ssbh_lib` types | structural equality |
| C34 | `strip_mesh_name_tags` | string search lemmas |
| C36 | `calculate_world_transform` | loop with visited set against an ancestor-chain specification |
| C37 | `calculate_relative_transform` over rational 4x4 matrices | false as stated: counterexample; partial theorem for the case it holds |
| C39, C48 | vertex buffer writer/reader, whole mesh conversion | strided writes as disjoint chunks, read back by the trace laws; induction over attributes and objects |
| C40 | validation in `create_mesh_object` | exact characterization of success |
| C41 | `convert_indices`, `read_vertex_indices` | induction |
| C42, C49 | rigging groups, sorting, lookup by name and subindex | permutation and filter lemmas |
| C43 | `calculate_max_influences` | counting invariant |
| C44 | `transform_inner` | case analysis |
| C45, C47, C50 | `read`/`write` of the data types | conversion theorems with C01 |
| C46 | `MeshExData::from_mesh_objects` | runs of equal names |
| C51 | all readers | a size bound preserved by every combinator, per type instances |
| C52 | compressed tracks with `Ieee.ops` | error bound of every operation, then for every component of every type |
| C53 | files read and saved twice with `Ieee.ops` | counterexample for compressed tracks; otherwise from C28 twice |
| C55 | rotations of compressed tracks with `Ieee.ops` | error of the square root from integer inequalities, then as C52 |
| C54 | mesh files with `Ieee.conv` | C45 with the error of the conversions to half floats and bytes |
| C56 | reading of `ModlData`, `HlpbData`, `MatlData`, `SkelData`, `MeshExData` from files | relation between the fields of both types (`Props/Shown.lean`), for all values of the format types; saved files by C45 |
| C57 | reading of `MeshData` from files | every reader is equivalent to a description of the bytes (`Props/MeshLayout.lean`); induction over counts, attributes, objects |
| C58 | reading of `AnimData` from files of versions 2.0 and 2.1 | every reader of bytes and bits is equivalent to a description of the track data (`Props/AnimLayout.lean`); induction over counts, frames, tracks |
| C59 | reading of `ShdrData`, `MetaData`, `ShaderBinary` | every reader is equivalent to a description of the bytes (`Props/ShdrLayout.lean`); induction over counts |
| C60 | reading of `AnimData` from files of version 1.2 (`Data/AnimV12.lean`), with the order of the hash map and overflow checks as parameters | the map against a description of the groups: an invariant over the loop, unique up to order; readers of property data against the sizes they need |
| C61 | creating meshes (`Data/MeshData.lean`) | a description of the fields of a saved mesh (`Props/MeshFields.lean`); invariant over the objects: every buffer ends where the ranges so far end |
| C62 | `write` and `read` of all formats with a stream that has content and stands anywhere (`Format.writeTo`, `Ssbh.readAt`) | the codec law holds at any position; every codec commutes with moving the stream by a multiple of 16 (class `Move`, `Formats/Move.lean`) |
| C63 | derived serde implementations of all types in `ssbh_lib` (`Json/Formats.lean`, by `tools/gen_json.py`), the conversions of ssbh_lib_json | a law for every combinator (`JLaw`: what is read back, and that it has the same JSON; `JOrd`: the order of entries), against the separate description `Json/Kept.lean` |
| C64 | derived serde implementations of all types in `ssbh_data` with their `serde(default)` and `deserialize_with` (`Json/DataFormats.lean`, by `tools/gen_json_data.py`), the conversions of ssbh_data_json | the laws of C63 with the separate description `Json/Finite.lean`; that no type accepts the JSON of another from the required names; files with C47 |
| C65 | nothing new: the readers and writers of C01, C15 and C17 | `Layout/Formats.lean` (by `tools/gen_layout.py`, which adds up the sizes of the Rust fields) and `Layout/Files.lean` give every field of every type its distance from the start as a number, without reference to the readers; the law "the reader returns v iff v is stored here" for each combinator, then for each type |
| C66 | nothing new: the conversions of C28, C31 to C36 at the file level | `Props/SavedFields.lean` describes the fields of the saved file which are not in the data (constants, counts, order of attributes, lists of references, products of transforms, compression by number of frames); each follows from the round trip of C01 and the shape of the converted value. The fields that are in the data are in C27, C45, C56 and C58. The computed spheres and the matrix operations are parameters |
| C67 | `from_vector_data`, `from_mesh_object` with the `==` of floats (`Data/AdjMesh.lean`); files from C17, C18, C65 | a description of the data of an Adj file by its bytes alone; the equality of bit patterns against the float model; slots of a vertex from C19 |
| C68 | the panics of `decompress` for pattern indices (`checked`) and of `calculate_rotation_w` | a description of the track data that panics, by its bytes (`Props/AnimPanics.lean`, with the storage of C58); readers of bits that end with an error or one bit early; the first track that cannot be shown decides |
| C69 | nothing new: the writers of C01, C15 and C17 | `Image/Spec.lean` describes a file as appended bytes, without a cursor or a data pointer that is set back; `Image/Formats.lean` (by `tools/gen_image.py` from the Rust types) does it for each type. `Image/Laws.lean` proves for each combinator that the calls of the writer, in whatever order they overwrite the buffer, leave exactly these bytes; then for each type and the header and padding of files |
| C70 | the code that `#[derive(SsbhWrite)]` generates, for any type: types are data (`Ty`: numbers, options, vectors, arrays, structs, tuples, enums with `pad_after`, `align_after`, `magic`, `repr`, pointers, lists, buffers, texts, tagged data), and `Ty.codec` gives the generated `size_in_bytes`, `alignment_in_bytes`, `ssbh_write` on any platform | `Ty.image` describes the bytes without a cursor; induction over types with the law of C69 as invariant, for the types that use the attributes as intended (`Ty.ok`). Witnesses for the other types: two values whose fields differ but not their bytes |
| C71 | the definitions of the ten formats as such types (`Derive/Formats.lean`) and `write_ssbh_file` with the derived code | an instance for each type shows that the writers of C01 are the derived ones on 64 bit platforms; induction over types shows that the files are equal on two platforms if all pointer targets have the same alignment; witnesses for the formats where they have not |
| C72 | the same writers as C71 and the readers of C01; the reader has 64 bit counts on all platforms (for 32 bit platforms see C90) | `Derive/Port.lean`: the laws of C01 hold for the combinators with any positive alignment of pointer targets, so reading undoes the writers of every platform |
| C73 | the conversions of C63 and C64 | `Json/Shape.lean` is a separate description of documents (`Shape`) with the function to the canonical document; `Json/Shapes.lean` and `Json/DataShapes.lean` have the names of fields and variants, the numbers of variants and the defaults of all types. A law for every combinator (`HasShape`) and an instance for every type show that reading a document and writing it again gives exactly its canonical document; that canonical documents stay the same is an induction over shapes (`Json/ShapeStable.lean`) |
| C74 | paths (`extension`, `with_extension`), a disk (`Tools/Disk.lean`), `from_file` and `write_to_file` of all types, the programs ssbh_lib_json and ssbh_data_json with their arguments | case analysis of the programs with the round trips of C01, C15, C17, C47, C63 and C64; the disk after a run is described without the program (`Holds`: one file has this content, all others are as before) |
| C75 | the extensions in ssbh_lib_json, ssbh_data_json and ssbh_test, against the table in /repo/README.md (`documented`) | case analysis; witnesses for the extensions that differ |
| C76 | ssbh_test (`Tools/Test.lean`), for each file that it looks at; the walk through the folders and the threads are not modelled | the round trips of C01, C15 and C17, the layout of C69; for Adj byte by byte from the description of C65 |
| C77 | the JSON of two files, C63 | injectivity of the JSON of C63 and the descriptions of C65; witness with a NaN and an infinity |
| C78 | saving of all data types (`Json/DataTool.lean`), `MatlEntryData` to and from entries of version 1.5 (`Data/MatlData.lean`) | C08 for the version in the header, cases over the versions; one induction per list of parameters |
| C79 | `Display`, `EnumString`, `FromRepr`, `EnumIter` of strum for the enums that derive them (`Lib/EnumNames.lean`), from the list of names in the order of the definition | one lemma for any enum whose names and numbers are different, used with a table of names and numbers for each enum |
| C80 | opening of all data types | the descriptions of C57 and C58: a frame with bits begins inside of the data, each vertex needs a byte of its own; C51 for the buffers |
| C81 | writing, reading and writing again, all data types | C45 gives what is read; converting it to a file type gives the same value as converting the original: texts by cutting at NUL, components by stability of rounding (C50), attributes, vertex counts, bounds and rigging groups one by one; tracks by `Kept` |
| C82 | opening and saving mesh files | C57 says where the data of a file of any origin is, so every component comes from a float, half float or byte; converting these to the format used for saving and back gives the same float (all half floats including NaN, all bytes); C45 for the saved file |
| C83 | vectors and matrices | model of vectors.rs; conversions to arrays and tuples by computation; where a matrix is in a file by unfolding the readers to the numbers of C57; the identity with exact products over the rationals; smallest and largest components with the values of the floats |
| C84 | `AnimData::write` and `read` in turn with `Ieee.ops` | numbers near a float are rounded to it, so interpolated values stay between both ends (C52); then range and largest value do not grow and the error adds up, by induction over the saves; the frame check by monotonicity of rounding |
| C85 | `calculate_bounding_info` (`Data/Bounding`) with `Ieee` addition, subtraction and division, in `MeshData::write` | `geometry_tools::bounding` is a parameter; its box finder is assumed to find the smallest box (`FindsBox`, `foldGeometry` is an instance), its sphere is arbitrary (see C91). Errors of the sum, the difference and the halving per direction (`Float/BoxLaws`), `half_max` adds them up; positions are stored exactly (C45), fields of the file by C61. `C85_rounding` and `C85_overflow` show that slack and limit are needed |
| C86 | `AnimData::write` and `read` in turn with `Ieee.ops`, the bytes of files by C69 | a component of equal frames stays one (C52: values stay between the smallest and the largest), a uniform scale stays uniform, so bits per frame do not grow (`bits_quantized_le`); shorter buffers give shorter files (`Image/Sizes`: `Shrinks` compares two images piece by piece, `Tight` bounds the end of a file by its length, so the second save cannot overflow). `C86_grows` is the exception with an infinite scale |
| C87 | `get_write_options`, `get_repr`, `get_usize_arg`, `get_byte_string_arg` and `ssbh_write_derive` up to the type (`Derive/Attributes`), on attributes as `syn` parses them; which code the compiler rejects is stated in the comments of `Item.derive` and `reprSize` | the options are compared with the list of everything written (`Last`, `LastRepr`) by induction over attributes and arguments. `Derive/Items` has the attributes of all types in the ten formats, from the source. Partial: `C87_silent`, `C87_repr_lost` and `C87_inner` are the exceptions |
| C88 | `AnimData::read`, `write` and `read` with `Ieee.ops`, for any file | the layout of what opens (C58) gives names without NUL, tracks of fewer than 2^32 frames and the flags of tracks without transforms, which are the conditions of C28, C45 and C29; C22, C23 and C30 for the exact tracks; C52, C55 for the others; C86 for further saves. `C88_not_saved` is a file which opens but cannot be saved |
| C89 | `Anim` and `AnimData`, `read` and `write` | the layout of C65 gives the bound, and shows that the files with shared nodes and tracks open; the image of C69 gives the least number of bytes that is appended for every element, and the exact number for the shared files |
| C90 | `read_buffer` and the formats with byte buffers (`Mesh`, `Anim`, `Shdr`), and `create_track_data_v20`, with `usize` of 32 bits (`Data/Word32`); the other readers of files have no cast to `usize` that matters. `MeshData::read` and `ShdrData::read` have the same conversion after these readers (counts are `u32`, offsets are added as `u64`). Bit positions in tracks above 64 MiB, allocation failures and writing are not modelled for 32 bits | both readers are compared codec by codec, with the positions of the headers of buffers that the layout of C65 gives; `C90_exact` is an equivalence |
| C91 | `from_mesh_objects` with the points it collects and the spheres of MeshEx (`Data/Spheres`), `calculate_bounding_info` | both sphere functions of `geometry_tools` are parameters that may be off by any error (`FindsSphere`, `FindsSphereOfSpheres`; `largeGeometry` is an instance without error); distances in Mathlib's Euclidean space. C61 and C15 for the files, C46 for the groups, `runs_index` for the index of the group of an object |
| C92 | the readers and writers of all formats, on a part of the file from its start | `Ext` (success is kept with more bytes) and `CutAt` (where a reader succeeds on a part of what was written, the lost bytes of the log are zeros close to the end) are proved for every combinator in `Lib/Extend` and `Lib/Cut` and derived for each type in `Formats/Cut` (`tools/gen_cut.py`). Zeros can be lost where nothing is read: the padding of strings, empty arrays at the end, the end of a MeshEx file. The examples show that 16 lost bytes can be unnoticed for SSBH and 15 for MeshEx; that 23 and 31 are the least bounds is not claimed |
| C93 | two runs of the writers of all formats and of all derived types | `differences` is the set of positions where two byte strings differ; `Ty.edit` (`Derive/Edit`) counts what changed between two values of a derived type, `editAdj`, `editMeshEx`, `editMaterials` between values of the types not made with the macro. `Near` (`Lib/Near`) relates two states of the writer with the same positions and logs that differ in k bytes; `Similar` is proved for every combinator and by mutual induction for every type of the deep embedding (`Derive/EditLaws`), and carried over to the formats by `DerivesFile`, which relates each format to its derived type (as in C71). For meshes `editMeshes` counts the changes and `NearS`, `NearO` relate two runs of the creation of objects and buffers (`Props/MeshEditLaws`); `bounds`, the calculation of bounding information, is any function. For models, helper bones and skeletons (`Props/DataEdits`) `editModel`, `editHelpers` and `editBone` count the changes; world transforms are the same outside of a set `ClosedBelow` the changed bones, by induction along the chain of parents. For MeshExData and AdjData (`Props/PlainDataEdits`) `editMeshExData` and `editAdjData`. For animations (`Props/AnimEdits`) `editAnim` counts the bytes of names, flags and of the encoded values of each track, and `StepClose` relates two runs of the creation of tracks, which append to one buffer; `C93_frames` and `C93_visibility` bound the change of the encoding by the changed frames (`changedFrames`, `frameBytes`, `fewFrames`) |
| C94 | `write` and `read` of MeshEx and Adj with a stream that has content and stands anywhere (`MeshEx.writeStream`, `MeshEx.readAt`, `Adj.writeStream`, `Adj.readAt`), and a user's program that writes SSBH and MeshEx files one after another (`writePacked`) | the codec law of the fields holds at any position, and everything that is read again lies at least 8 bytes after the start of the file, where the final write of the length never comes; for Adj the writer only appends to what it wrote from its position on (`WroteFrom`) |
| C95 | `write` of all formats, MeshEx and Adj with a stream that cannot become longer than a given size (`Ssbh.writeRoom`, `MeshEx.writeRoom`, `Adj.writeRoom`): writing without the limit up to the first write that ends after it | all writes of a trace are within the room exactly if the output is not longer (`fitsRoom_iff`), and the length of an output depends only on the places of the writes, which move with the position (`render_length_place`, class `Place` for the absolute pointers of MeshEx); success from the image (`C62_success`) |
| C96 | `read` and `write` of the eight data types with a stream that has content and stands anywhere (`Data/DataStreams`) | conversions of the file types, which C62 and C94 put into streams; `C62_fits` for success: the image of a file moves with its position and its end is close to the end of the bytes (`Image/Nice`, an instance for each type in `Image/NiceFormats`). The extra indices of AdjData are like a longer last entry, whose offsets are the same (`scan_last`) |
| C97 | `calculate_world_transform` and the world transforms of saved files, `transform_points`, `transform_vectors`; the products of `glam` (another crate, not in /repo) as IEEE 754 operations in `Data/Glam`, or any product with such an error | the error of one sum of four products from the errors of the float operations (`Float/DotLaws`), then induction over the ancestors: the relative errors add up, the absolute ones are covered by 2^-125 in `reach`; exact sums from `Float/ExactDot` |
| C98 | `write_to_file` and `from_file` as calls of the operating system (`Tools/Steps.lean`): `File::create`, the buffer in memory, the loop of `write_all`; `std::fs::read`; any list of steps of any number of tasks with any answers; `write_to_file` of the data types | an invariant of the only task that saves to the file, over all steps; then C92 (more bytes do not change what is opened) for the value |
| C99 | as C98, with several tasks that save to one file | invariants over all steps: for one saver what a reader has got so far, for many savers how each of them got where it is and what a write does to the bytes; the mixtures are runs with two name lists |
| C100 | the writers of all formats and data types | for ssbh_lib from the round trip (C01, C15, C17) and C92; for data types from C45 and C81, stated with the functions that describe what is saved (`cutNul`, `storedObject`); for animations `EqualTrack` compares the encodings, by induction over the nested lists of groups, nodes and tracks, whose bytes follow each other in one buffer (`Props/EqualFiles`) |
| C101 | `write` of the eight data types with a stream that cannot become longer than a given size (`Data/DataRoom`) | `Limited` has the claims for one type; they follow for all conversions to a file type from C95, and reading from C62 (`limited_of`). AdjData as in C96 |
| C102 | `f64_from_parts`, `as f32`, layouts of `ryu`, `parse_number` and all it calls (`Json/Numbers`, `Json/Text`) on the floats of `Float/Ieee` | the specification of a decimal is about rational numbers (`NearestTo`). A bound for the error of the roundings to 64 bits (`Json/NumberError`) is compared with the distance of a decimal to the middle of two floats: for each of the 254 distances of neighbours a proved search finds all decimals that are very near to a middle (`Float/Lattice`, `Float/Middles`: 13 of them). Those equal to a middle are exact in 64 bits (`Json/NumberMiddle`), the others are read by evaluation, so rounding to 32 bits gives the nearest (`Json/NumberLaws`). `shortest` searches the exponents from above |
| C103 | `to_string_pretty`, `from_str` for values: escapes, white space, nesting limit (`Json/Text`) | parser after printer by induction over the value with any rest (`Json/TextLaws`), too deep values by the same induction (`Json/TextDeep`). The values of all file types have small depth and numbers of 64 bits by type classes (`Json/Small`, `Json/FormatsSmall`). The programs follow from C74 |
| C104 | as C103, with the steps of `Tools/Steps` | every part of the parser has the same result on a longer text if it stopped before the end (`Json/TextPrefix`), so a beginning that is accepted would be the whole text. Beginnings of the bytes by the prefix property of UTF-8; stopped programs by C98 |
| C105 | as C103; the grammar of RFC 8259 is written down as a relation between values and texts (`Json/Grammar`), which does not refer to the parser; the value of a number is a parameter of it | both directions by induction: from the derivation (`spells_read`), and from what the parser has consumed (`parseValue_split`), with splitting lemmas for numbers and strings. Integers: the digits are dropped if and only if they do not fit into 64 bits |
| C106 | as C102 and C105; `Json/NumberSpec` says which rational number a text denotes | the digits that are kept bound the number up to a part of `2 ^ -60` (`scan_close`, induction over the digits before and behind the point); the product or quotient with the rounded power of ten stays within `2 ^ -51` (`fromParts_close`, error bounds of the IEEE operations), the rest is the nearest float of a number that differs by at most `2 ^ -50` (`parseNumber_double`). `C106_near` follows with the margin, `C106_exact` from the gap between floats, `C106_error` from the error of the last rounding. Too small and too large numbers: all powers of ten of the table, and an induction over the divisions by `1e308` (`divPow_small`) |
| C107 | as C105; `J.get` and `J.put` in `Json/Edit` say what a part of a value is | the derivation of the grammar is followed along the path (`spells_hole`, induction over the path, with `list_hole` and `entries_hole` by induction over the elements): the spaces around the new text become part of the spaces of the grammar. `C107_elements` follows the path of each list of each data format, and reads the new element with the model of serde (`list_de`); that no other type accepts the file follows from the names that are missing |
| C108 | as C74, C103 and C107 | `C108_program` composes the runs of C74 with the text of C103 and the edit of C107. The other theorems use C45 for the new file; that the elements which were not edited stay the same follows from the file they were read from (text without NUL, parents of 16 bits, `mesh_kept` of C82) |
| C109 | as C73, C105 and C107; `Shape.part` in `Json/ShapeEdit` says which shape a part has | `step_canon` (by cases over the shape) replaces a child of a canonical document, `part_canon` (induction over the path) a part. That no other type takes the edited document follows from the names of the top, which an edit below it does not change (`refuses`, `heads`): for every two types a name is missing, except for the order Modl, Matl, Adj, where the code reads something else (`C109_model`, `C109_materials`) |
| C110 | as C74, C103 and C109 | composes the runs of C74, the text of C103 and the edit of C109. That the extension stays the same follows from the names of the top of the JSON (`extension_top`), which an edit below it does not change; that the new file is read as the new value is C01 (`read_written`) |
| C111 | nothing new: the conversions of C28, C36 and C48 | that what is kept of a track (C28) determines it, that reading a track uses the buffer only in its range, that the object of C48 is a function of the object; induction over the rounds of the world transform loop for two skeletons that agree on the ancestors |
| C112 | nothing new: opening meshes, C48 | readers of numbers use a fixed number of bytes at their position (`Local`), so reading vertices and indices gives the same where the same bytes are; lifted through attributes, weights and objects |
| C113 | `Data/Compare.lean`: the derived `PartialEq` of the data types with floats and of their parts, field by field; floats by `f32::eq` as in `Data/AdjMesh.lean` | `Data/CompareSpec.lean` has the specification (`plus`, `nanFree`); one law per type, from the parts to the whole, with one for lists and one for floats; C47 for saved files |
| C114 | nothing new: C45, C113 | what is opened is known from C45; comparing it with the data leaves one condition for each text, version, parent index and scale compensation; tracks of animations that are not compressed, and switches, are exact (C22, C28) |
| C115 | nothing new: skeletons, C35, C36 | induction on the loop: renumbering commutes with each round, an injective renumbering keeps membership in the visited set; merging is a shift and the identity |
| C116 | nothing new: `MatlEntryData.ofV16`, `toV16`, C01 | one lemma by induction on the attributes for each type; sorting by type is a permutation of the kept attributes by induction on the types |
| C117 | nothing new: the conversions of C56, C66 and C116, and C01 | converting there and back is the identity on a field exactly if the field has a value the data can hold; lists by induction, matrices by a lemma on collecting results |

## Where the code disagrees with the expected property

Each of these is proved with a concrete witness or is an explicit condition of a theorem.

* C15, C17: counts are stored in 32 bits; more entries wrap. Adj data before the first offset of a file is not
  part of any entry (`C18_ranges`), so it is lost when such a file is read and saved.
* C19: an index out of range panics (`C19_panics_iff`); indices after the last complete triangle are ignored.
* C23: a pattern index is stored in 24 bits, so values that span 2^24 or more are changed (`C23_pattern_lossy`).
* C24: if the frames need no bits, only one frame is read back (`C24_constant_loses_frames`).
* C27: the data offset of a track is 32 bits and wraps at 4 GiB (`C27_offsets_wrap`).
* C29: above 2^24 frames the comparison is rounded: 16777219 frames and the final frame index 16777218 are rejected
  (`C29_beyond_limit`).
* C52: if the distance of the smallest and largest value is not a finite float, all values become the smallest one
  (`C52_huge_range`).
* C53: values of compressed tracks change each time an animation is opened and saved: rounding and then truncating takes
  off one more step each time (`C53_drift`). In exact arithmetic this does not happen (`C25_exact_again`).
* C55: rotations which are not of length 1 get another `w` (`C55_not_unit`).
* C54: values above 65504 in half float attributes become infinite (`C54_half_overflow`).
* C30: boolean tracks are compressed even when this is larger (`C30_boolean_grows`).
* C34: stripping tags is not idempotent: the result can end in `Shape` again (`C34_not_idempotent`). Positions are
  counted in characters in the model and in bytes in the code; the cut is at the same place.
* C35: parent indices of 32768 and above become negative, or wrap: the bone loses its parent or gets another
  one (`C35_large_parent`).
* C37: the relative transform is `world * parent^-1`, while world transforms are composed as `parent * relative`, so it
  only recomposes if the two commute (`C37_iff`, `C37_fails`). A unit test of the repository expects this order too.
* C42: objects with names that only differ after a NUL character share their bone influences (`C42_nul_fails`).
* C43: the stored influence count has 8 bits and wraps at 256 (`C43_wraps`).
* C48: version 1.8 drops binormals, and attributes get names by usage and number. A mesh with only binormals can be written once but not
  after reading it back (`C50_binormals_only`).
* C28, C31, C32, C33, C38, C39: strings are cut at the first NUL character; the properties say so.
* C59: a shader file with an incomplete shader makes `ShdrData::read` panic instead of returning an error (`C59_panics`).
  `MetaData::read` returns an error for missing bytes and panics for names outside of the data (example in
  `Props/ShdrLayout.lean`).
* C60: for files of version 1.2 the order of the groups is not fixed and no values are read. Incomplete data panics. Data of
  the kind 0x4308 that is complete but below 76 bytes panics in debug builds only (`C60_debug_panics`).
* C62: files can be written at positions that are not a multiple of 16, but not read from there (`C62_misaligned`), and most
  formats leave the writer in the middle of the file (`C62_position`), so the next file overwrites it (`C62_in_a_row`).
* C94: `MeshEx::write` puts the length of the whole stream at the start of the stream instead of the length of the file at the start of the file (`C94_meshex_length`, `C94_meshex_own_length`), so it destroys the first file of the stream (`C94_first_lost`), and its pointers count from the start of the stream, so it cannot be cut out (`C94_meshex_cut`). `Adj::read` takes everything up to the end of the stream for indices (`C94_adj_two`).
* C95: Mesh, Anim 2.1 and MeshEx pad the end of the stream and not the end of the file, so a slice whose length is no multiple of 8 (16 for MeshEx) takes none of them, however large it is (`C95_slice_odd`, `C95_meshex_slice`).
* C96: `AdjData::read` from a stream gives the last entry everything after the file as vertices, without an error (`C96_adj_two`).
* C63: a float that is infinite or NaN becomes `null` and the JSON is not accepted again: ssbh_lib_json writes nothing and
  reports nothing (`C63_nan`). Texts that are not UTF-8 become empty, a pointer to a null string becomes a null pointer
  (`C63_changed`). JSON texts with a zero character are accepted and cut when the file is read (`C63_nul`).
* C64: ssbh_data_json panics on JSON that it made itself from a file with an infinity or a NaN (`C64_nan`).
* C67: a vertex with a NaN coordinate gets no neighbours, even as the corner of faces, because it is not equal to itself (`C67_nan`). An object whose list of positions is empty panics if it has faces (`C67_panics`), but not an object without such a list (`C67_no_positions`). Vertices from 32768 on do not fit the 16 bits of a slot (`C67_exact`), and 65535 looks like an unused slot (`C67_unused`).
* C68: a compressed transform track with rotations whose data ends exactly before the sign of a frame panics (`C68_sign_missing`, `read_bit().unwrap()`); if one more bit is missing it is an error. A pattern index above 2^32 - 1 panics in builds with overflow checks and wraps in others (`C68_overflow`).
* C69: rule 3 of ssbh_offsets.md (each target has the smallest offset that obeys its alignment) is false: an empty list moves the next target to a multiple of 8, even if that is a text with alignment 4 (`C69_rule3_false`: a shorter file with the same contents, whose texts are all at multiples of 4). In the same way a text with alignment 8 moves a following text with alignment 4 (Nufx).
* C70: types that the macro accepts and for which it writes overlapping data: a field with `align_after` in the middle of a type (the bytes of the gap are written but not counted, so what the first pointer refers to overlaps the fields after it, `C70_align_after`), an enum with `repr` and `pad_after` (`C70_repr_padding`), a list whose elements have different sizes (`size_in_bytes` of a slice is the one of the first element times the length, `C70_elements`). `magic` on a tuple struct or enum is counted but never written (`C70_magic`). No type of ssbh_lib is like that.
* C87: options are ignored without a message: literals of another kind, which also remove an earlier value (`C87_silent`), `repr` beside other options in one attribute (`C87_repr_lost`), and `alignment`, `magic` and `repr` of fields and variants (`C87_inner`).
* C71: the alignment of the targets of `RelPtr64` and `SsbhEnum64` is `std::mem::align_of` of the Rust type, so it depends on the platform: models with an animation file name, materials of version 1.6 and render passes are saved to other bytes in 32 bit WebAssembly (`C71_models`, `C71_materials16`, `C71_passes`), on 32 bit x86 also materials of version 1.5 (`C71_materials15`).
* C73: a number which is too large for a float is accepted as infinity, written to the file, and shown as `null`, which is not accepted (`C73_too_large`). All fields of MeshEx except `unk1` may be missing and unknown names are ignored, so a document with a number `unk1` and misspelled names is converted to a MeshEx file without content, and nothing is reported (`C73_misspelled`).
* C74: `write_to_file` creates the file before it knows that the value can be written, so saving a MeshEx value with different numbers of entries and flags destroys the file that was there (`C74_meshex_emptied`); `MeshExData` never is such a value. The conversions of ssbh_data happen before the file is created, so their errors leave it alone (`C74_data_failed`). ssbh_data_json reports nothing for the extensions of Nlst, Nrpd, Nufx and Shdr files or for extensions in capital letters (`C74_data_unknown`). Converting `x.numdlb.json` back without a name for the output gives `x.numdlb.numdlb`.
* C98: there is no temporary file: `write_to_file` empties the old file first, so a program that is killed or a full disk destroys it (`C98_lost`). An Adj file that was cut opens without an error, with fewer indices (`C98_adj`).
* C99: files are not locked. A file that is opened while it is saved can open without an error as a value that was never saved (`C99_open_mixture`), and so can the file of two programs that save at the same time (`C99_save_mixture`).
* C100: for compressed tracks the file does not determine the values. Two animations that differ only in one value can have the same file (`C100_rounded`), so comparing files does not find every change of an animation.
* C75: ssbh_lib_json gives Nufx files the extension `nuflxb`; the documentation, and ssbh_test, say `nufxlb` (`C75_nufx`). ssbh_data_json does nothing with models that have the documented extension `nusrcmdlb` (`C75_nusrcmdlb`). ssbh_test looks neither at those nor at Nlst files (`C75_test_missing`).
* C76: ssbh_test panics on a MeshEx file with flags and a null pointer instead of entries: it is read without an error, but cannot be written (`C76_panics`).
* C77: the table in /repo/ssbh_lib_json/README.md:72-76 says that files with the same JSON contain the same data if all fields are in the type definitions. It is wrong for floats that are not finite: a NaN and an infinity have the same JSON (`C77_hidden`).
* C78: the version of SkelData, ModlData and HlpbData is ignored when saving (`C78_ignored`, `C78_not_kept`): the error `UnsupportedVersion` of skel_data.rs is never returned. The documentation of MatlData lists 1.5 and 1.6 as supported (matl_data.rs:78), but data of version 1.5 cannot be saved (`C78_old_not_saved`). The code that converts materials to version 1.5 exists and is never called; it loses the blend operations, the alpha factors, the fill mode and the depth bias (`C78_old_entry`, `C78_old_entry_lost`).
* C80: the number of bone influences of an object is only bounded by the square of the size of the file, as groups of a hostile file can share their lists.
* C89: arrays may share their elements, so what is opened from a file, and a file saved from it, can be much larger than the file: with the cube of its size for animations (`C89_shared`, `C89_grows`).
* C90: with 32 bit addresses the check of the length of byte buffers, and of the data of a track, is modulo 2^32, so some malformed files open in WebAssembly that are errors elsewhere (`C90_accepted`, `C90_data_accepted`).
* C81: the second file differs from the first one for animations whose values change by compression (C53), and for 1.8 mesh objects which only have binormals. A skeleton in which a bone has the parent index 65536 can be saved once; in the file the bone is its own parent, and the data read from it can not be saved.
* C82: opening and saving a mesh file whose attributes have other formats than those used for saving changes the data without an error, for example texture coordinates stored as floats in a 1.10 file. There is no way to keep the format of a file.
* C109: ssbh_data_json tries the next type if a document is not accepted, and unknown names are ignored. So a model without entries whose name is wrong is taken for materials (`C109_model`), and what is reported is the version of the materials. Materials without entries whose version is wrong are taken for adjacency data without entries (`C109_materials`), which is written without a message.

## Partial claims

Claims with status `partial` in the manifest are those whose statement is false or needs a condition that the statement does not
have; the theorem with the suffix `_partial` has the condition, another theorem shows the failure, and the note says
what is missing.
