{"id": "C01", "title": "SSBH round trip", "statement": "For every value of each of the ten SSBH formats (Hlpb, Matl, Modl, Mesh, Skel, Anim, Nlst, Nrpd, Nufx, Shdr) and every file version the type supports, if `write` succeeds then `read` of the produced bytes succeeds and returns an equal value.", "quantifier": "all values of the ten file types: any number of entries, any nesting, any string bytes without a zero byte, any null or non-null pointers", "why_tests_cant": "the encoder interleaves inline data and out-of-line data through one moving data pointer; whether a pointer target is later overwritten depends on the whole shape of the value, and only sampled shapes can be tested", "anchors": ["ssbh_lib/src/lib.rs::write_ssbh_file", "ssbh_lib/src/lib.rs::write_rel_ptr_aligned_specialized", "ssbh_lib/src/lib.rs::RelPtr64", "ssbh_lib/src/arrays.rs::SsbhArray", "ssbh_lib/src/arrays.rs::SsbhByteBuffer", "ssbh_lib/src/strings.rs::CString", "ssbh_lib/src/enums.rs::SsbhEnum64", "ssbh_write/src/lib.rs::SsbhWrite", "ssbh_write_derive/src/lib.rs", "ssbh_lib/src/formats/*.rs"]}
{"id": "C02", "title": "read-write-read gives identical bytes", "statement": "For every SSBH value whose `write` succeeds, reading the bytes back and writing the result again produces exactly the same bytes (one read/write cycle is a fixed point).", "quantifier": "all values of the ten file types", "why_tests_cant": "needs both losslessness and determinism for every value", "anchors": ["architecture.md", "ssbh_lib/src/lib.rs::write_ssbh_file", "ssbh_lib/src/lib.rs::write_buffered"]}
{"id": "C03", "title": "Only the written bytes matter", "statement": "Appending any bytes after the bytes produced by `write` does not change what `read` returns for an SSBH file; no part of the decoded value depends on data outside the regions that the writer produced for it.", "quantifier": "all values of the ten file types and all trailing byte strings", "why_tests_cant": "quantifies over every suffix and every value", "anchors": ["ssbh_lib/src/lib.rs::RelPtr64::read_options", "ssbh_lib/src/arrays.rs::read_ssbh_array", "ssbh_lib/src/arrays.rs::read_buffer"]}
{"id": "C04", "title": "Written data never overlaps", "statement": "While writing an SSBH file no byte position of the output is written twice: the regions of any two fields, array elements, strings or buffers are disjoint.", "quantifier": "all values of the ten file types (any nesting of pointers and arrays)", "why_tests_cant": "overlap only shows for particular combinations of sizes and alignments; a round trip of sampled values can miss overlapping equal bytes", "anchors": ["ssbh_offsets.md", "ssbh_lib/src/lib.rs::write_rel_ptr_aligned_specialized", "ssbh_lib/src/arrays.rs::write_array_header", "ssbh_write_derive/src/lib.rs::write_data_ptr_bump"]}
{"id": "C05", "title": "Offsets are aligned, forward and ordered", "statement": "Every non-null offset written for an SSBH value points strictly past the pointer field itself and past the end of the enclosing structure, points to a position that is a multiple of the alignment required for its target (8 for arrays, 4 or 8 for strings), and the absolute targets never decrease in the order in which fields are visited.", "quantifier": "all values of the ten file types", "why_tests_cant": "statement about every offset of every possible output", "anchors": ["ssbh_offsets.md", "ssbh_lib/src/lib.rs::round_up", "ssbh_lib/src/lib.rs::write_relative_offset", "ssbh_lib/src/arrays.rs::write_array_header"]}
{"id": "C06", "title": "Padding is zero", "statement": "Every byte of a written SSBH file which is not part of some field's own encoding is zero, so the output is a function of the value only.", "quantifier": "all values of the ten file types", "why_tests_cant": "quantifies over every gap in every output", "anchors": ["ssbh_lib/src/lib.rs::write_rel_ptr_aligned_specialized", "ssbh_write_derive/src/lib.rs::pad_after", "ssbh_lib/src/arrays.rs::SsbhByteBuffer::ssbh_write"]}
{"id": "C07", "title": "Null pointers and empty arrays are offset zero", "statement": "A null relative pointer is written as a zero offset and only a null pointer is; an empty array is written as offset 0 with count 0; and reading a zero offset yields null. No non-null pointer is ever written with offset zero.", "quantifier": "all pointer targets and writer states", "why_tests_cant": "must hold for every writer state (position, data pointer)", "anchors": ["ssbh_lib/src/lib.rs::RelPtr64", "ssbh_lib/src/arrays.rs::write_array_header", "ssbh_lib/src/enums.rs::SsbhEnum64"]}
{"id": "C08", "title": "Foreign data is rejected", "statement": "Reading bytes as format X returns an error, never a value, if the HBSS magic is wrong, the format magic is not X's (InvalidSsbhType for another known format), the version is not one of X's versions, or an enumeration tag is not one of the listed values.", "quantifier": "all byte strings", "why_tests_cant": "adversarial inputs; cannot be enumerated", "anchors": ["ssbh_lib/src/lib.rs::ssbh_read_write_impl", "ssbh_lib/src/lib.rs::SsbhFile", "ssbh_lib/src/lib.rs::Ssbh", "ssbh_lib/src/lib.rs::Versioned"]}
{"id": "C09", "title": "The version survives", "statement": "The version numbers stored in the file after writing are those of the variant being written, and a successful read of any byte string returns the variant belonging to the stored version numbers.", "quantifier": "all byte strings / all values of versioned formats", "why_tests_cant": "all inputs", "anchors": ["ssbh_lib/src/lib.rs::Versioned", "ssbh_lib/src/lib.rs::write_ssbh_file", "ssbh_lib/src/lib.rs::Version"]}
{"id": "C10", "title": "Offset overflow is an error", "statement": "Resolving a relative offset that would exceed the 64-bit range returns an error; otherwise the resolved position is exactly the field position plus the offset (no wrap-around).", "quantifier": "all 64-bit positions and offsets and all pointer and array readers", "why_tests_cant": "2^128 position/offset pairs", "anchors": ["ssbh_lib/src/lib.rs::absolute_offset_checked", "ssbh_lib/src/lib.rs::RelPtr64::read_options", "ssbh_lib/src/arrays.rs::read_ssbh_array"]}
{"id": "C11", "title": "Byte buffers are exact or rejected", "statement": "Reading a byte buffer either returns exactly the `count` bytes that start at the stored offset or fails; it never returns a shorter or longer buffer and never returns bytes from outside the input.", "quantifier": "all byte strings, positions, offsets and counts", "why_tests_cant": "all malformed inputs", "anchors": ["ssbh_lib/src/arrays.rs::read_buffer", "ssbh_lib/src/arrays.rs::SsbhByteBuffer"]}
{"id": "C12", "title": "Arrays have the declared length and fit in the input", "statement": "A successful read of an array returns exactly the stored `count` elements, the reader continues right after the 16-byte header, and if elements occupy at least k bytes each then count*k is at most the number of input bytes after the array's start: a huge count in a small file is an error and cannot make a result larger than the input.", "quantifier": "all byte strings, positions and element types", "why_tests_cant": "all malformed inputs", "anchors": ["ssbh_lib/src/arrays.rs::read_ssbh_array", "ssbh_lib/src/arrays.rs::read_elements"]}
{"id": "C13", "title": "Strings: null terminated, aligned, exact", "statement": "Any string built from text or bytes holds exactly the bytes before the first zero byte; it is written as these bytes followed by a zero byte (an empty string as N zero bytes) at a multiple of N, and reading returns exactly these bytes for every later content of the file.", "quantifier": "all byte strings, N and writer states", "why_tests_cant": "all strings and positions", "anchors": ["ssbh_lib/src/strings.rs::CString", "ssbh_lib/src/strings.rs::SsbhStringN", "ssbh_lib/src/strings.rs::from_bytes"]}
{"id": "C14", "title": "Absolute pointers do not truncate", "statement": "Writing an absolute 16/32/64-bit pointer stores the exact target position or returns an error when the position does not fit; a successful write is always read back to the same value.", "quantifier": "all pointees, writer states and pointer widths", "why_tests_cant": "needs outputs larger than the pointer range; all states", "anchors": ["ssbh_lib/src/lib.rs::Ptr"]}
{"id": "C15", "title": "MeshEx file integrity", "statement": "For a MeshEx with fewer than 2^32 entries, entry flags and object groups: writing fails without output if the number of entry flags differs from the number of entries; otherwise the file length is a multiple of 16, the first 8 bytes store exactly the file length, and reading gives the same MeshEx.", "quantifier": "all MeshEx values", "why_tests_cant": "all sizes", "anchors": ["ssbh_lib/src/formats/meshex.rs::MeshEx"]}
{"id": "C16", "title": "Mesh and Anim 2.1 files are padded to 8 bytes", "statement": "For every Mesh (1.8, 1.9, 1.10) and every Anim 2.1 value, the length of a successfully written file is a multiple of 8.", "quantifier": "all values", "why_tests_cant": "depends on total size of all content", "anchors": ["ssbh_lib/src/formats/mesh.rs::Mesh", "ssbh_lib/src/formats/anim.rs::Anim", "ssbh_write_derive/src/lib.rs::write_aligned_after"]}
{"id": "C17", "title": "Adj file round trip", "statement": "For every Adj value with fewer than 2^32 entries, reading the written bytes gives the same entries and index buffer.", "quantifier": "all Adj values", "why_tests_cant": "all sizes", "anchors": ["ssbh_lib/src/formats/adj.rs::Adj"]}
{"id": "C18", "title": "AdjData conversion", "statement": "Converting AdjData to Adj and back is the identity whenever object indices and byte offsets fit in 32 bits; converting any Adj yields an error exactly when some entry's range is not contained in the buffer or is reversed, and otherwise each entry gets exactly its slice.", "quantifier": "all AdjData and all Adj values (also malformed)", "why_tests_cant": "all malformed offsets tables", "anchors": ["ssbh_data/src/adj_data.rs::TryFrom"]}
{"id": "C19", "title": "Triangle adjacency", "statement": "For triangle faces with in-range indices the computed adjacency has exactly 18 slots per vertex; the slots of a vertex are the other two corners (in cyclic order) of every face corner located at a vertex with an equal position, in vertex then face order and as 16-bit numbers, cut to 18 and filled with -1.", "quantifier": "all position lists and index lists", "why_tests_cant": "all meshes", "anchors": ["ssbh_data/src/adj_data.rs::triangle_adjacency"]}
{"id": "C20", "title": "Bit stream round trip", "statement": "Any sequence of values written with given bit widths (at most 32) into a preallocated buffer of the total width is read back by the same sequence of widths as the values modulo 2^width; reading past the end is an error and never returns data.", "quantifier": "all sequences of values and widths", "why_tests_cant": "exponentially many sequences crossing byte boundaries", "anchors": ["ssbh_data/src/anim_data/bitutils.rs::BitReader", "ssbh_data/src/anim_data/bitutils.rs::BitWriter"]}
{"id": "C21", "title": "Compression never overruns its buffer", "statement": "Compressing any list of track values of any type with the parameters computed by the library writes exactly bits_per_entry bits per frame, so the writer never runs out of its preallocated buffer and each frame starts at a multiple of bits_per_entry; decompression consumes exactly the same number of bits.", "quantifier": "all track types, values (including constant components) and frame counts", "why_tests_cant": "the number of bits depends on which components are constant over all frames", "anchors": ["ssbh_data/src/anim_data/compression.rs::compress", "ssbh_data/src/anim_data/buffers.rs::create_compressed_buffer"]}
{"id": "C22", "title": "Boolean tracks are lossless", "statement": "A compressed boolean track of any length decompresses to the same list of values.", "quantifier": "all boolean lists", "why_tests_cant": "all lengths", "anchors": ["ssbh_data/src/anim_data/compression.rs::Boolean", "ssbh_data/src/anim_data/buffers.rs::read_compressed_inner"]}
{"id": "C23", "title": "Pattern index tracks are lossless", "statement": "A compressed pattern-index (u32) track decompresses to the same list of values.", "quantifier": "all u32 lists", "why_tests_cant": "needs particular value ranges; holds only for ranges below 2^24", "anchors": ["ssbh_data/src/anim_data/compression.rs::u32"]}
{"id": "C24", "title": "Frame count of compressed tracks", "statement": "Reading back a compressed float/vector/transform track returns as many frames as were written.", "quantifier": "all value lists", "why_tests_cant": "depends on all components being constant; false for constant tracks (one frame is returned)", "anchors": ["ssbh_data/src/anim_data/buffers.rs::read_compressed_inner"]}
{"id": "C25", "title": "Quantization error bound", "statement": "In exact arithmetic, decompressing a compressed value in [min,max] with n bits (1 to 32) differs from the value by less than (max-min)/(2^n-1), never exceeds the value, and is exact at both ends of the range; compressing the restored value again gives the same code.", "quantifier": "all rational values, ranges and bit counts", "why_tests_cant": "continuum of values", "anchors": ["ssbh_data/src/anim_data/compression.rs::compress_f32", "ssbh_data/src/anim_data/compression.rs::decompress_f32"]}
{"id": "C26", "title": "Uncompressed tracks round trip", "statement": "Track values written with the direct or constant encodings are read back unchanged for every track type and length.", "quantifier": "all value lists", "why_tests_cant": "all lengths", "anchors": ["ssbh_data/src/anim_data/buffers.rs::read_uncompressed", "ssbh_data/src/anim_data/buffers.rs::TrackValues::write"]}
{"id": "C27", "title": "Track data ranges", "statement": "In an Anim created from AnimData the (offset, size) ranges of the tracks are consecutive and disjoint, lie in the buffer and cover it; when reading, a range that overflows or exceeds the buffer is an error and never a panic.", "quantifier": "all group/node/track trees, all offsets and sizes", "why_tests_cant": "all trees", "anchors": ["ssbh_data/src/anim_data.rs::create_anim_track_v2", "ssbh_data/src/anim_data.rs::create_track_data_v20"]}
{"id": "C28", "title": "AnimData structure is preserved", "statement": "Converting AnimData with fewer than 2^32 frames per track and less than 4 GiB of track data to Anim and back preserves groups, nodes, tracks, flags, names without NUL, and for uncompressed encodings the track values.", "quantifier": "all AnimData values accepted by the conversion", "why_tests_cant": "all trees", "anchors": ["ssbh_data/src/anim_data.rs::create_anim", "ssbh_data/src/anim_data.rs::read_groups_v20"]}
{"id": "C29", "title": "Final frame index validation", "statement": "Creating an Anim whose longest track has at most 2^24 frames fails with UnsupportedVersion exactly for versions other than 2.0 and 2.1, and otherwise with InvalidFinalFrameIndex exactly when the final frame index is NaN, negative or smaller than the longest track's length minus one. (With more frames the comparison is rounded.)", "quantifier": "all AnimData values with at most 2^24 frames per track", "why_tests_cant": "all trees, all float values", "anchors": ["ssbh_data/src/anim_data.rs::create_anim"]}
{"id": "C30", "title": "Compression is only chosen when it pays off", "statement": "Whenever the inferred encoding of a track is the compressed one, the compressed encoding (header, defaults, parameters and bits) is smaller than the direct encoding.", "quantifier": "all track types, lengths and bit counts", "why_tests_cant": "all lengths", "anchors": ["ssbh_data/src/anim_data.rs::infer_optimal_compression_type"]}
{"id": "C31", "title": "HlpbData conversion", "statement": "HlpbData -> Hlpb -> HlpbData is the identity for version 1.1 and strings without NUL (others are cut at the first NUL); the written constraint index list enumerates all aim then all orient constraints (fewer than 2^32 each), each exactly once, with matching types.", "quantifier": "all HlpbData values", "why_tests_cant": "all list lengths", "anchors": ["ssbh_data/src/hlpb_data.rs"]}
{"id": "C32", "title": "ModlData conversion", "statement": "ModlData -> Modl -> ModlData is the identity for version 1.7 and strings without NUL (others are cut at the first NUL).", "quantifier": "all ModlData values", "why_tests_cant": "all list lengths, all strings", "anchors": ["ssbh_data/src/modl_data.rs"]}
{"id": "C33", "title": "MeshExData conversion", "statement": "MeshExData (at most 2^32 groups) -> MeshEx -> MeshExData recovers every group with its names (up to the first NUL) and its entry flags in order; every entry refers to an existing group and there is one flag for every entry.", "quantifier": "all MeshExData values", "why_tests_cant": "all group sizes (also empty groups)", "anchors": ["ssbh_data/src/meshex_data.rs"]}
{"id": "C34", "title": "Mesh name tags", "statement": "Stripping tags from a mesh name returns a prefix of the name which contains neither _VIS nor _O_ tag, is idempotent, and leaves names without tags and without Shape suffix unchanged.", "quantifier": "all strings", "why_tests_cant": "all strings", "anchors": ["ssbh_data/src/meshex_data.rs::strip_mesh_name_tags"]}
{"id": "C35", "title": "SkelData conversion", "statement": "SkelData -> Skel -> SkelData preserves bone order, names, transforms, parents and billboard types.", "quantifier": "all SkelData values", "why_tests_cant": "holds only for parent indices representable in i16; all bone lists", "anchors": ["ssbh_data/src/skel_data.rs"]}
{"id": "C36", "title": "World transforms terminate and detect cycles", "statement": "Computing a bone's world transform always terminates; it reports a cycle exactly when following parents from the bone runs into a cycle, and otherwise returns the product of the transforms along the chain of ancestors.", "quantifier": "all parent graphs, including cyclic and out of range ones", "why_tests_cant": "all graphs; non-termination cannot be tested", "anchors": ["ssbh_data/src/skel_data.rs::calculate_world_transform"]}
{"id": "C37", "title": "Relative transforms recompose", "statement": "Multiplying the parent's world transform with the relative transform computed from a world transform returns the world transform.", "quantifier": "all matrices with invertible parent", "why_tests_cant": "continuum of matrices", "anchors": ["ssbh_data/src/skel_data.rs::calculate_relative_transform"]}
{"id": "C38", "title": "MatlData conversion", "statement": "MatlData of version 1.6 -> Matl -> MatlData is the identity on labels and all parameter groups, for strings without NUL (others are cut at the first NUL); other versions are rejected.", "quantifier": "all MatlData values", "why_tests_cant": "all combinations of parameters", "anchors": ["ssbh_data/src/matl_data.rs"]}
{"id": "C39", "title": "Vertex attributes survive interleaving", "statement": "For every mesh that is created with less than 4 GiB per buffer, reading it returns for every object and every kind of attribute the same attributes in the same order, each component rounded to the storage type of the version and usage and nothing else: attributes and objects never overwrite each other. (Version 1.8 does not store binormals nor attribute names, and numbers at most 2^32 attributes of one kind.)", "quantifier": "all attribute counts, component types, vertex counts and object lists", "why_tests_cant": "all combinations", "anchors": ["ssbh_data/src/mesh_data/mesh_attributes.rs", "ssbh_data/src/mesh_data/vector_data.rs", "ssbh_data/src/mesh_data.rs::create_mesh_object"]}
{"id": "C40", "title": "Invalid meshes are rejected", "statement": "Creating a mesh object fails when the index count is not a multiple of three, when attribute lengths differ, or when an index is not below the vertex count; every mesh that is created has only in-range indices.", "quantifier": "all mesh objects", "why_tests_cant": "all inputs", "anchors": ["ssbh_data/src/mesh_data.rs::create_mesh_object", "ssbh_data/src/mesh_data.rs::vertex_count"]}
{"id": "C41", "title": "Vertex indices round trip", "statement": "Vertex indices are stored as 16 bit values if and only if all fit, as 32 bit values otherwise; with less than 4 GiB per buffer, reading returns the original indices.", "quantifier": "all index lists", "why_tests_cant": "all lists", "anchors": ["ssbh_data/src/mesh_data.rs::convert_indices", "ssbh_data/src/mesh_data.rs::read_vertex_indices"]}
{"id": "C42", "title": "Rigging round trip", "statement": "For mesh objects with pairwise distinct (name, subindex) and names without NUL, the bone influences read for each object are exactly those written for it (bone names up to the first NUL); equal pairs are rejected; vertex indices above 65535 are rejected for version 1.10 instead of truncated. Objects whose names are equal up to the first NUL share their influences.", "quantifier": "all object lists and influences of meshes with less than 4 GiB per buffer", "why_tests_cant": "all lists; order is changed by sorting", "anchors": ["ssbh_data/src/mesh_data.rs::create_rigging_buffers", "ssbh_data/src/mesh_data.rs::read_rigging_data", "ssbh_data/src/mesh_data.rs::create_vertex_weights_v10"]}
{"id": "C43", "title": "Max influences", "statement": "The computed maximum influence count is the largest number of bone influences which contain a common vertex (each influence counted once); the file stores it modulo 256.", "quantifier": "all influence lists", "why_tests_cant": "all lists", "anchors": ["ssbh_data/src/mesh_data.rs::calculate_max_influences"]}
{"id": "C44", "title": "Transforms keep shape", "statement": "Transforming points or vectors keeps the number of elements, the number of components, and for four component data the fourth component.", "quantifier": "all vector data and matrices", "why_tests_cant": "continuum", "anchors": ["ssbh_data/src/mesh_data.rs::transform_inner"]}
{"id": "C45", "title": "Data survives being written to a file", "statement": "If writing ModlData, HlpbData, MatlData, SkelData, MeshExData, AdjData, AnimData or MeshData succeeds (Anim and Mesh: files of less than 4 GiB with fewer than 2^32 frames per track, and no two objects with the same subindex and the same name up to the first NUL; MeshEx: fewer than 2^32 groups and flags; Adj: entries, object indices and byte offsets below 2^32), reading the bytes as the same type succeeds and gives the data back (strings up to the first NUL, the version of the file, parent indices modulo 2^16, compressed tracks as decompressed, mesh attributes rounded to their storage type).", "quantifier": "all data values of each type", "why_tests_cant": "all combinations of field values, list lengths and strings", "anchors": ["ssbh_data/src/lib.rs::ssbh_data_impl"]}
{"id": "C46", "title": "MeshEx groups of mesh objects", "statement": "The MeshEx created from a list of mesh objects has one group for each maximal run of objects with the same name, in order, with the name, the name without tags, and one entry with all flags set for every object of the run.", "quantifier": "all lists of mesh objects", "why_tests_cant": "all lists of names, including repeated but separated names", "anchors": ["ssbh_data/src/meshex_data.rs::from_mesh_objects"]}
{"id": "C47", "title": "Opening and saving keeps the data", "statement": "For any bytes at all which read successfully as ModlData, HlpbData, MatlData, SkelData, MeshExData or AdjData: if the data can be written, then reading the written bytes gives exactly the same data.", "quantifier": "all byte strings", "why_tests_cant": "files of unknown origin: overlapping, reordered, shared or padded data", "anchors": ["ssbh_data/src/lib.rs::ssbh_data_impl"]}
{"id": "C48", "title": "MeshData conversion", "statement": "Converting MeshData to Mesh (1.8, 1.9, 1.10) and back returns the same data with components rounded to their storage type, strings cut at the first NUL, and (1.8 only) binormals dropped and attributes renamed by usage and number; all other fields of all objects are unchanged.", "quantifier": "all MeshData whose conversion succeeds, buffers below 4 GiB, no two objects with the same subindex and the same name up to the first NUL, at most 2^32 attributes of one kind in an object of a 1.8 mesh", "why_tests_cant": "all attribute layouts, object lists and versions", "anchors": ["ssbh_data/src/mesh_data.rs::create_mesh", "ssbh_data/src/mesh_data.rs::read_mesh_objects"]}
{"id": "C49", "title": "Rigging groups are complete and sorted", "statement": "The rigging groups of a created mesh are in one to one correspondence with its objects and sorted by object name and then subindex.", "quantifier": "all object lists", "why_tests_cant": "all lists", "anchors": ["ssbh_data/src/mesh_data.rs::create_rigging_buffers"]}
{"id": "C50", "title": "A second save loses nothing", "statement": "MeshData read from a saved mesh can be saved again and reads back exactly the same, bit for bit. (Exception: a 1.8 object with faces whose only attributes are binormals can be saved once, but what is read is rejected.)", "quantifier": "all MeshData whose conversion succeeds, buffers below 4 GiB, no two objects with the same subindex and the same name up to the first NUL", "why_tests_cant": "all inputs", "anchors": ["ssbh_data/src/mesh_data.rs::create_mesh", "ssbh_data/src/mesh_data/mesh_attributes.rs"]}
{"id": "C51", "title": "Nothing read is longer than the file", "statement": "No array, byte buffer or string anywhere in a value which is read from a file (ten SSBH formats, MeshEx, Adj) has more elements than the file has bytes, whatever counts the file declares.", "quantifier": "all byte strings", "why_tests_cant": "all inputs, in particular hostile ones", "anchors": ["ssbh_lib/src/arrays.rs::read_elements", "ssbh_lib/src/arrays.rs::read_buffer", "ssbh_lib/src/formats"]}
{"id": "C52", "title": "Accuracy of compressed tracks", "statement": "After converting AnimData to an Anim and back, every stored component of every frame (floats, vectors, texture transforms; scale, rotation xyz and translation of transforms) is finite and differs from the original by at most 5R/(2^24-1) + M/2^23 + 2^-149, where R is the distance between the smallest and largest original value of the component (at most the largest finite f32) and M the largest absolute value. The smallest and largest values are exact, and no restored value is below the smallest or above the largest. Frames which are not stored because the track is constant are as close.", "quantifier": "all tracks of finite values, all lengths below 2^32, less than 4 GiB of track data", "why_tests_cant": "continuum of values and ranges; float rounding depends on all of them", "anchors": ["ssbh_data/src/anim_data/compression.rs::compress_f32", "ssbh_data/src/anim_data/compression.rs::decompress_f32", "ssbh_data/src/anim_data/buffers.rs"]}
{"id": "C53", "title": "Saving an animation again", "statement": "Opening an animation file that was saved by the library and saving it again changes no track value.", "quantifier": "all AnimData values that can be saved, files below 4 GiB", "why_tests_cant": "false for some compressed values only: each save lowers them by another step", "anchors": ["ssbh_data/src/anim_data.rs", "ssbh_data/src/anim_data/compression.rs::compress_f32"]}
{"id": "C54", "title": "Precision of vertex data", "statement": "After saving and reading a mesh, components stored as f32 are unchanged bit for bit, components stored as half floats (finite, at most 65504) differ by at most max(|v|/2^11, 2^-25), and color components stored as bytes differ from the value clamped to [0,1] by at most 1/510 + 2^-23, with values up to 0 and from 1 read exactly as 0 and 1; the number and order of the attributes of each kind and of their vectors is kept (binormals of 1.8 meshes excepted).", "quantifier": "all MeshData that can be saved, all finite components, files below 4 GiB, no two objects with the same subindex and the same name up to the first NUL", "why_tests_cant": "continuum of values", "anchors": ["ssbh_data/src/mesh_data/vector_data.rs", "ssbh_data/src/mesh_data/mesh_attributes.rs"]}
{"id": "C55", "title": "Rotations of compressed transforms", "statement": "In a compressed transform track whose rotations are finite and have a squared length within d of 1 (d at most 2^-10), every restored rotation is finite, has a squared length within d + 2^-18 of 1, x, y, z within 13/2^24, w within the root of d + 2^-18, and w with the same sign bit. (w is computed, so other rotations are not kept.)", "quantifier": "all transform tracks of such rotations, all lengths below 2^32, less than 4 GiB of track data", "why_tests_cant": "continuum of rotations; rounding of six operations and a square root, close to zero too", "anchors": ["ssbh_data/src/anim_data/compression.rs::calculate_rotation_w", "ssbh_data/src/anim_data/compression.rs::compress_f32"]}
{"id": "C56", "title": "Data types show the fields of the file", "statement": "For any Modl, Hlpb, Matl, Skel or MeshEx file that the format types can read (of any origin and version), the data type reads it too and shows each value of the file in its own field: names are the UTF-8 text of the stored string (empty text for null or other bytes), lists keep their order and length, material parameters are exactly the attributes of their kind in file order with their id and value (for 1.5 and 1.6), booleans are true exactly for nonzero numbers, bones pair the entries with the transforms at the same position and have no parent exactly for negative indices, and flags of an object group are bits 0 and 1 of the flags at the positions of the entries with its index. Saving a Modl, Hlpb, Matl or Skel puts the values in these fields of the file.", "quantifier": "all byte strings the format types can read; all data values that can be saved", "why_tests_cant": "round trip tests do not see two fields exchanged in both directions; old versions are only read", "anchors": ["ssbh_data/src/modl_data.rs", "ssbh_data/src/hlpb_data.rs", "ssbh_data/src/matl_data.rs", "ssbh_data/src/skel_data.rs", "ssbh_data/src/meshex_data.rs"]}
{"id": "C57", "title": "Layout of mesh files", "statement": "For any mesh file of version 1.8, 1.9 or 1.10 that the format type can read, MeshData reads exactly what the file has at these places: component j of vector i of an attribute is the number at object offset + attribute offset + i * stride + j * component size of the vertex buffer with the attribute's index, with the component type and count of the attribute's data type; vertex index k is the 2 or 4 byte number at index offset + k * size; the attributes of each kind are the file's attributes with that usage in order, with the first listed name (a name made of usage and subindex for 1.8); influences are those of the rigging groups with the object's name and subindex; flags are true exactly for nonzero bytes. Reading succeeds exactly if such data exists, that is if everything is inside its buffer, buffers and bone names exist, and the stride is not zero. Half floats are shown exactly and a color byte n as the float next to n/255. A saved mesh has its data at these places.", "quantifier": "all byte strings that read as a mesh, all MeshData values saved to files below 4 GiB without two objects of the same subindex and name", "why_tests_cant": "all combinations of buffers, offsets, strides and types; files by other programs; round trips do not see an error made the same way in both directions", "anchors": ["ssbh_data/src/mesh_data.rs::read_mesh_objects", "ssbh_data/src/mesh_data/vector_data.rs::read_vector_data", "ssbh_data/src/mesh_data.rs::read_vertex_indices"]}
{"id": "C58", "title": "Layout of animation files", "statement": "For any animation file of version 2.0 or 2.1 that the format type can read, whoever made it, AnimData reads exactly what the file has at these places: groups, nodes and tracks in order with their names; the four override flags are bits 0 to 3 of the track's flags; the data of a track is the given range of the buffer. Value i of a track that is not compressed starts at i * size with its parts as consecutive little endian numbers (transform: scale, rotation, translation, compensate scale). A compressed track starts with a header (flags, position of the default, bits of a frame, position of the frames) and the minimum, maximum and bit count of each part; frame i starts at bit i * (bits of a frame), low bits first, with the parts in order (scale, rotation without w, translation, sign of w) that the flags announce; a float with minimum = maximum or zero bits takes no bits and is the default, a pattern index is its bits plus the minimum (modulo 2^32 in builds without overflow checks). Frames without bits are shown once. Reading succeeds exactly if such data exists: ranges inside the buffer, at most 32 bits for a part, announced bits of a frame equal to the sum of the parts, enough bits for all frames. A saved animation has its data at these places.", "quantifier": "all byte strings that read as an animation of version 2.0 or 2.1, all AnimData values saved to files below 4 GiB, every meaning of the float operations", "why_tests_cant": "all combinations of types, flags, bit counts and frame counts; files by other programs use flags and bit counts the writer never uses; round trips do not see an error made the same way in both directions", "anchors": ["ssbh_data/src/anim_data/buffers.rs::read_track_values", "ssbh_data/src/anim_data/compression.rs::decompress", "ssbh_data/src/anim_data/bitutils.rs::read_u32", "ssbh_data/src/anim_data.rs::read_anim_groups"]}
{"id": "C59", "title": "Layout of compiled shaders", "statement": "For any shader file that the format type can read, whoever made it, ShdrData shows the shaders in order with their names and stages, and for each of them exactly what its binary has at these places: position 292 has the base of all positions and 392 the position of the names; the tables of buffers, uniforms, inputs and outputs are described at 332, 340, 348 and 356 by a count and a position and have entries of 108, 164, 92 and 92 bytes; an entry starts with the position and length of its name (the last byte is not part of it), followed at fixed places by the sizes, data type (one of 15 numbers), signed indices and location. The code has its length at 2504 and starts at 2896. Reading succeeds exactly if such data exists. If the binary of a shader is not complete, reading the shader file panics instead of returning an error.", "quantifier": "all byte strings as compiled shader, all shader files, every meaning of names that are not UTF-8", "why_tests_cant": "all counts and positions in 32 bits, overlapping tables, truncated data; the repository has no tests for this module", "anchors": ["ssbh_data/src/shdr_data.rs::MetaData::read", "ssbh_data/src/shdr_data.rs::ShaderBinary::read", "ssbh_data/src/shdr_data.rs::read_string", "ssbh_data/src/shdr_data.rs::ShdrData::read"]}
{"id": "C60", "title": "Animations of version 1.2", "statement": "For any animation file of version 1.2 that the format type can read, AnimData shows the final frame index and one group for each kind of track that occurs (transform, visibility, material), with a node for every track of the kind in the order of the file, named like the track, that has one track without values. The order of the groups is not fixed: every order is a possible result, nothing else is. Reading succeeds exactly if every property refers to a buffer that has the bytes its first number asks for; otherwise the library panics (it never returns an error). With overflow checks (debug builds) complete data of the kind 0x4308 must also have at least 76 bytes. The result cannot be saved: writing is an error.", "quantifier": "all byte strings that read as an animation of version 1.2, every order of a hash map, builds with and without overflow checks", "why_tests_cant": "the order changes from run to run; all numbers of tracks, kinds and buffer contents; the repository has no tests for this version", "anchors": ["ssbh_data/src/anim_data.rs::read_groups_v12", "ssbh_data/src/anim_data.rs::create_track_data_v12", "ssbh_data/src/anim_data.rs::read_anim_groups"]}
{"id": "C61", "title": "Derived fields of saved meshes", "statement": "Every mesh saved from MeshData (1.8, 1.9, 1.10) with buffers below 4 GiB describes itself correctly. Per object: vertex and index counts are the lengths of the data; the stride of vertex buffers 0 and 1 is the sum of the sizes of the attributes in it; attributes follow each other inside a vertex with the right usage, data type, buffer, offset, number and names; the index type is 16 bits exactly if every index fits; the skinning flag is set exactly if there are influences; the bounds are those of the object's first positions. The vertex ranges of the objects in buffers 0 and 1 and their ranges in the index buffer are consecutive from 0 to the end of the buffer, so they do not overlap and no byte is left over. Buffer 2 has 32 zero bytes per vertex (1.8, 1.9) or is empty with stride 0 (1.10), while its offsets always count 32 bytes for each earlier vertex (modulo 2^32). Buffer 3 is empty. The listed buffer sizes are the sizes of the buffers, the bounds of the mesh are those of the first positions of all objects, and there is one rigging group per object with its name, subindex, bones and largest influence count (modulo 256).", "quantifier": "all MeshData that is converted to a mesh, any number of objects and attributes; all files that are saved below 4 GiB", "why_tests_cant": "these fields are not part of MeshData, so round trip tests do not see them; they depend on all earlier objects", "anchors": ["ssbh_data/src/mesh_data.rs::create_mesh_object", "ssbh_data/src/mesh_data.rs::create_mesh_inner", "ssbh_data/src/mesh_data.rs::create_rigging_buffers", "ssbh_data/src/mesh_data/mesh_attributes.rs::create_attributes_from_data"]}
{"id": "C62", "title": "Files inside a larger stream", "statement": "`write` and `read` take any seekable stream. A file written at a multiple of 16, over any existing data, is read back from that position, also after more data is appended; the bytes before it and the bytes after its length are kept; written at or after the end of the stream it is the existing data, zeros up to the position and exactly the bytes of the file written on its own. What can be written on its own can also be written there, unless its end is after position 2^64 - 8. So any number of files written at the next multiple of 16 after the end of the stream are all read back. Reading at a multiple of 16 gives what reading gives with everything before cut off. After writing, the stream is at its end only for Mesh and Anim 2.1; for all others it is right after the outermost record of the file, so writing a second file there destroys the first one. A file written at any other position is never read back: reading there is an error.", "quantifier": "all values of the ten formats, all stream contents and positions; the only error of writing is a position beyond 64 bits", "why_tests_cant": "the tests write into empty streams only; alignment depends on the position, and the position afterwards on the format", "anchors": ["ssbh_lib/src/lib.rs::write_ssbh_file", "ssbh_lib/src/lib.rs::SsbhFile", "ssbh_lib/src/lib.rs::write_ssbh_header", "ssbh_write::SsbhWrite"]}
{"id": "C63", "title": "Files as JSON", "statement": "Converting a value of any of the twelve formats to JSON and back gives the value itself exactly if all its floats are finite, all its texts are UTF-8 and no pointer leads to a null string. If a float is infinite or NaN, the JSON is not accepted as any type. Otherwise texts that are not UTF-8 become empty and pointers to null strings become null, and nothing else changes. What was read from JSON has the same JSON again. JSON made from a value is always read as the type it was made from, although the type is not part of the MeshEx and Adj JSON and is found by trying. The file written for it is read back, with the extension chosen by the tool. The order of entries in JSON objects does not matter. Byte buffers are hexadecimal texts, and exactly such texts are accepted.", "quantifier": "all values of the ten SSBH formats in all versions, MeshEx and Adj; all JSON values for the order; counts below 2^32 for MeshEx and Adj files", "why_tests_cant": "types, versions and nesting combine without bound; the tests of the repository have a few lines about strings and byte buffers only", "anchors": ["ssbh_lib_json/src/main.rs::read_json_write_data", "ssbh_lib_json/src/main.rs::read_data_write_json", "ssbh_lib/src/strings.rs::serialize_str_bytes", "ssbh_lib/src/strings.rs::deserialize_str_bytes", "ssbh_lib/src/arrays.rs::serialize_hex", "ssbh_lib/src/arrays.rs::deserialize_hex", "ssbh_lib/src/lib.rs::Ssbh"]}
{"id": "C64", "title": "Data as JSON", "statement": "Converting data (MeshData, SkelData, AnimData, ModlData, MatlData, HlpbData, MeshExData, AdjData) to JSON and back gives the same data of the same type if all its floats are finite, although the type is not part of the JSON and is found by trying; otherwise the JSON is not accepted as any type. Different data has different JSON. ssbh_data_json writes for it exactly the bytes that saving the data writes, with the extension of the type. A Skel, Modl, Matl, Hlpb, MeshEx or Adj file shown as JSON and converted back is a file with the same data. The order of entries in JSON objects does not matter, unknown entries of the whole object are ignored. Any entries of samplers and blend states may be missing and have documented defaults; material entries without UV transforms and samplers with a null anisotropy are accepted.", "quantifier": "all values of the eight types, all bytes given to the tool, all JSON values for the order, all subsets of missing entries", "why_tests_cant": "the types accept each other's JSON only by accident of field names, and the values are unbounded; the tool has no tests", "anchors": ["ssbh_data_json/src/main.rs::main", "ssbh_data_json/src/main.rs::deserialize_and_save", "ssbh_data_json/src/main.rs::parse_and_write_json", "ssbh_data/src/matl_data.rs::SamplerData", "ssbh_data/src/matl_data.rs::parse_max_anisotropy", "ssbh_data/src/matl_data.rs::BlendStateData"]}
{"id": "C65", "title": "Binary layout of files", "statement": "For every format and version, each field has a fixed distance from the start of the structure that contains it, numbers are little endian, a pointer holds its distance to its target with zero for null, a list its distance and the number of elements, a text ends with a zero byte, a parameter its pointer and then the number of its type. Reading a file gives a value exactly if the file holds this value in this way, so no file holds two values and a file that holds none is an error; what lies between the fields does not matter. Writing gives a file which holds the value in this way, with 64 in bytes 4 to 11 and zero in bytes 12 to 15. MeshEx files hold positions in the file instead of distances, and counts for all their lists; a written one starts with its own length. Adj files are a count, the entries, and numbers of two bytes until the end.", "quantifier": "all bytes, all values of the ten formats in all versions, all MeshEx and Adj values", "why_tests_cant": "a reader and a writer that agree on a wrong order or size of fields pass all round trip tests; sample files do not fix what other bytes may be there", "anchors": ["ssbh_lib/src/formats/modl.rs::Modl", "ssbh_lib/src/formats/mesh.rs::MeshObject", "ssbh_lib/src/formats/matl.rs::ParamV16", "ssbh_lib/src/formats/nrpd.rs::Nrpd", "ssbh_lib/src/formats/meshex.rs::MeshEx", "ssbh_lib/src/formats/adj.rs::Adj", "ssbh_lib/src/lib.rs::SsbhFile", "ssbh_lib/src/arrays.rs::SsbhArray", "ssbh_lib/src/lib.rs::RelPtr64"]}
{"id": "C66", "title": "Fields added when saving", "statement": "The fields of a saved file which are not part of the data have fixed values. No text is missing (a model may have no animation). Helper bones: the list of all constraints has the aim and then the orient constraints, each with its position, and the unused numbers are zero. Materials: the attributes are in the order blend states, booleans, floats, vectors, rasterizer states, samplers, textures, UV transforms; booleans are 0 or 1; the filtering type of a sampler is the default exactly for an anisotropy of one; the other numbers are constants. Skeletons: five lists with one entry for each bone, with the transform, its inverse, the product of the transforms from the last ancestor down to the bone, and its inverse; a bone without parent has parent -1. Mesh extension: the sphere of all groups under the name All, one entry for each flag in the order of the groups, no flag bits other than the two known ones. Animations: constants 1 and 3, empty name, and for each track the number of its values, its type, and a compression that depends only on the type and the number of frames.", "quantifier": "all model, helper bone, material, skeleton, mesh extension and animation data which can be saved; any matrix operations and bounding spheres", "why_tests_cant": "reading back ignores these fields, so round trip tests cannot see a wrong one; the game reads them", "anchors": ["ssbh_data/src/hlpb_data.rs::HlpbData", "ssbh_data/src/matl_data.rs::MatlEntryData", "ssbh_data/src/skel_data.rs::SkelData", "ssbh_data/src/meshex_data.rs::MeshExData", "ssbh_data/src/anim_data.rs::infer_optimal_compression_type", "ssbh_data/src/modl_data.rs::ModlData"]}
{"id": "C67", "title": "Adjacency files and adjacency of mesh objects", "statement": "Adjacency data opens exactly from files which hold it: the number of entries, for each the index of the object and a byte offset, then numbers of two bytes; an entry has the numbers from its offset to the next offset, the last one to the end. Reversed offsets and offsets after the end are errors. The adjacency computed for a mesh object has 18 slots for each vertex of its first position list: the other corners of all faces around the place of the vertex, cut or filled with -1. Vertices at the same place have the same slots (0 and -0 are the same), a vertex with a NaN coordinate has none. An object without position list has no slots; otherwise a face corner without position is a panic. Slots hold the vertex itself exactly for vertices below 32768.", "quantifier": "all bytes, all adjacency data, all mesh objects", "why_tests_cant": "equality of float positions has corner cases, and which bytes are rejected cannot be listed", "anchors": ["ssbh_data/src/adj_data.rs::AdjEntryData::from_mesh_object", "ssbh_data/src/adj_data.rs::AdjEntryData::from_vector_data", "ssbh_data/src/adj_data.rs::AdjData", "ssbh_lib/src/formats/adj.rs::Adj"]}
{"id": "C68", "title": "Panics when reading animations", "statement": "An animation file of version 2.0 or 2.1 that the format type can read makes AnimData panic exactly if the first track that cannot be shown is a compressed track inside the buffer with a valid header and (1) is a transform track with rotations whose packed frames end exactly one bit, the sign of w, before the end of one of the announced frames, or (2) in builds with overflow checks, is a pattern index track with a frame whose bits plus minimum are 2^32 or more. In all other cases reading returns data or an error. Creating a file never panics, whatever the data, and a saved file never makes reading panic.", "quantifier": "all byte strings that read as an animation of version 2.0 or 2.1, all AnimData values, every meaning of the float operations, builds with and without overflow checks", "why_tests_cant": "whether a reader can panic depends on every length, flag and bit count of a file made by anyone; no sample of files shows that all the others are safe", "anchors": ["ssbh_data/src/anim_data/compression.rs::decompress", "ssbh_data/src/anim_data/compression.rs::calculate_rotation_w", "ssbh_data/src/anim_data/bitutils.rs::read_bit", "ssbh_data/src/anim_data.rs::read_anim_groups"]}
{"id": "C69", "title": "Every byte of a written file", "statement": "Writing gives exactly these bytes: the 16 bytes of the container header, the magic and the version of the type, its fields in order with their sizes, and then what the pointers refer to, appended to the end of the file in the order of the fields, each target followed by the targets of its own pointers. A target is at the first multiple of its alignment (8 for lists and tagged data, the largest one of its fields for a structure, 4 or 8 for a text depending on its type) after everything before it, gaps are zeros, null is zero, an empty list is zero but the next target is then at a multiple of 8, a pointer holds the distance to its target, and the file ends with zeros up to a multiple of the alignment of the type. MeshEx files are the same with absolute positions and alignments of 16, and an Adj file is just its count, entries and indices. Writing fails only if the positions do not fit into 64 bits (or the counts of a MeshEx differ); for SSBH files that means that these would be more than 2^64 - 8 bytes. Hence opening and saving a file of any origin gives identical bytes exactly if it has this layout. The documented rule that each target is at the smallest offset its alignment allows is false after an empty list.", "quantifier": "all values of the ten types, MeshEx and Adj", "why_tests_cant": "the repository tests compare the bytes of some small values; the statement determines every byte for all nestings of pointers, lists, texts and empty values", "anchors": ["ssbh_write/src/lib.rs::SsbhWrite", "ssbh_write_derive/src/lib.rs", "ssbh_lib/src/lib.rs::RelPtr64", "ssbh_lib/src/arrays.rs::SsbhArray", "ssbh_lib/src/strings.rs::CString", "ssbh_lib/src/enums.rs", "ssbh_lib/src/formats/meshex.rs::MeshEx", "ssbh_lib/src/formats/adj.rs::Adj"]}
{"id": "C70", "title": "What a type that derives SsbhWrite writes", "statement": "For a type of one's own built from integers, options, vectors, arrays, structs, enums, bitfields, and the pointer, list, buffer, text and tagged types of ssbh_lib, with #[derive(SsbhWrite)], the derived code writes exactly: the magic (structs with named fields), the fields in order with their padding, the padding of the type, and then the data of the pointers, each at the next multiple of the alignment of its type after all data before it, with zeros in the gaps; align_after of the written type adds zeros up to its multiple; a value inside another takes exactly size_in_bytes bytes, and writing fails only if positions do not fit into 64 bits. This holds on every platform if magic is only used on structs with named fields, align_after only on the outermost type, pad_after not on enums with repr, and elements of vectors, arrays and lists all have the same size. Without these conditions it is false: the macro accepts such types, but pointers then refer to bytes that other fields overwrite, so that two different values are written as the same bytes, or the magic is missing.", "quantifier": "all types of any nesting with any attributes, all values of them, all platforms on which the alignment of an integer divides its size", "why_tests_cant": "the tests of the macro are a few sample types; the property is about all types a user can define", "anchors": ["ssbh_write_derive/src/lib.rs::ssbh_write_derive", "ssbh_write/src/lib.rs::SsbhWrite"]}
{"id": "C71", "title": "Saving on different platforms", "statement": "The same value is saved to identical bytes on every platform the library is compiled for. This is true for all values of hlpb, mesh, skel, anim, nlst, nufx and shdr files whatever the alignments of numbers and pointers are, for all formats between platforms with the same alignments as x86-64, and for materials of version 1.5 in 32 bit WebAssembly. It is false for models with an animation file name, materials of version 1.6 and render passes, which are saved to other bytes in 32 bit WebAssembly, and on 32 bit x86 also for materials of version 1.5.", "quantifier": "all values of the ten types, all platforms, described by the alignment of numbers and pointers", "why_tests_cant": "tests run on one platform; the dependence on it comes from the alignment in memory of Rust types behind pointers", "anchors": ["ssbh_write/src/lib.rs::SsbhWrite::alignment_in_bytes", "ssbh_lib/src/lib.rs::RelPtr64", "ssbh_lib/src/enums.rs::SsbhEnum64", "ssbh_lib/src/formats/matl.rs", "ssbh_lib/src/formats/modl.rs", "ssbh_lib/src/formats/nrpd.rs"]}
{"id": "C72", "title": "Files saved on other platforms", "statement": "Although some files differ between platforms (C71), every file saved by the library on any platform is read back to exactly the value that was saved, for all ten formats; saving there fails only if positions do not fit into 64 bits; and opening such a file and saving it again gives what the second platform saves for the original value.", "quantifier": "all values of the ten types, all platforms, described by the alignment of numbers and pointers", "why_tests_cant": "tests run on one platform and on a few values; the claim is about the files of all platforms and all values", "anchors": ["ssbh_write/src/lib.rs::SsbhWrite::alignment_in_bytes", "ssbh_lib/src/lib.rs::RelPtr64", "ssbh_lib/src/enums.rs::SsbhEnum64", "ssbh_lib/src/lib.rs::write_ssbh_file"]}
{"id": "C73", "title": "JSON documents", "statement": "A JSON document is accepted for a type exactly if it has the documented form: structs are objects with their fields by name in any order, or arrays with all fields in order; pointers and options may be null and, in objects, may be missing unless the pointer is relative; integers lie in the range of their type; floats are any numbers; byte buffers are hexadecimal texts; enums are names; versions and variants with data are objects with one entry; samplers, blend states and UV transforms have their defaults; other entries are ignored, names that occur twice are not accepted. ssbh_lib_json and ssbh_data_json take the first of their types that accepts the document. The value they get is the one that is written as the canonical document: fields in their order, defaults filled in, floats rounded, hexadecimal digits in lower case. The file that ssbh_lib_json writes for a document is shown as its canonical document. A canonical document is its own canonical document and has the same type if no number is too large for a float. The variant of an enum with a number in the file is shown by its name.", "quantifier": "all JSON documents (trees) whose texts have no character U+0000, all types of the twelve formats and the nine data types, all 23 enums stored as numbers; for the written file MeshEx and Adj counts below 2^32", "why_tests_cant": "the documents are unbounded trees, and the tests of the repository read only documents which the library wrote; which other documents are accepted, and as what, is not tested", "anchors": ["ssbh_lib_json/src/main.rs::read_json_write_data", "ssbh_data_json/src/main.rs::main", "ssbh_lib/src/arrays.rs::deserialize_hex", "ssbh_lib/src/lib.rs::Ptr", "ssbh_lib/src/lib.rs::RelPtr64", "ssbh_data/src/matl_data.rs::SamplerData", "ssbh_lib/src/formats/matl.rs::ParamId"]}
{"id": "C74", "title": "Files on disk and the conversion programs", "statement": "Saving a value to a file leaves exactly the bytes of the value in the file, whatever was there before, and changes no other file; opening the file gives the value. If saving fails, nothing has changed, or the value cannot be written and the file is empty; for data types the conversion comes first, so data that cannot be converted leaves the file alone, and only a file too large for 64 bit positions is emptied. A run of ssbh_lib_json or ssbh_data_json changes at most one file: the given output, or without it a file beside the input which is never the input. A run that fails changes nothing, except that the output is emptied by a value that cannot be written. Converting a file to JSON and that back without naming outputs keeps the file, and the new file is what saving its value gives, has the extension of its type at its end and is opened as the same value (for ssbh_data_json: is what opening and saving gives). Data is saved as a file of the type under whose extension ssbh_data_json looks for it.", "quantifier": "all values of the twelve file types and eight data types, all contents of the disk, all paths of input and output (also equal ones), any text of JSON in which the value can be found again; values that JSON keeps for the round trip, MeshEx and Adj counts below 2^32 for opening", "why_tests_cant": "the state of the disk before the call, the paths and the values are unbounded; that no other file changes and that no failure destroys data is a statement about all of them", "anchors": ["ssbh_lib/src/lib.rs::write_to_file", "ssbh_lib/src/lib.rs::from_file", "ssbh_lib/src/lib.rs::write_buffered", "ssbh_data/src/lib.rs::write_to_file", "ssbh_lib_json/src/main.rs::main", "ssbh_data_json/src/main.rs::main"]}
{"id": "C75", "title": "Documented extensions", "statement": "The programs use the documented file extensions. ssbh_lib_json opens a file of any type under each documented extension of the type and gives new files a documented extension. ssbh_data_json opens the files of its eight types under each documented extension, as data of this type, and gives new files a documented extension. ssbh_test checks files with each documented extension.", "quantifier": "all values of the twelve types, all documented extensions, all contents", "why_tests_cant": "the programs have no tests, and a test with one file per type does not compare the extensions of different programs with the documentation", "anchors": ["ssbh_lib_json/src/main.rs::read_json_write_data", "ssbh_data_json/src/main.rs::main", "ssbh_test/src/main.rs::main", "README.md", "ssbh_lib/src/formats/nufx.rs"]}
{"id": "C76", "title": "What ssbh_test reports", "statement": "ssbh_test is silent about a file exactly if the file is what saving some value gives; for the SSBH formats exactly if it is laid out by the rules of C69. It stops at no SSBH file unless a position does not fit in 64 bits, and at no Adj file; a readable Adj file is reported exactly if an odd number of bytes follows its entries. It does panic on some readable MeshEx files.", "quantifier": "all byte strings as files with the extensions that ssbh_test looks at", "why_tests_cant": "it is the test program for game dumps itself: what its silence means for all files cannot be seen from runs", "anchors": ["ssbh_test/src/main.rs::check_read_write_ssbh", "ssbh_test/src/main.rs::check_read_write_meshex", "ssbh_test/src/main.rs::check_read_write_adj"]}
{"id": "C77", "title": "Comparing files by their JSON", "statement": "Two files have the same output of ssbh_lib_json exactly if they contain the same data: if JSON keeps all of what they contain, the JSON is the same exactly if both files are descriptions of one value, so that they differ at most in padding, placement and sharing. With finite floats the JSON is the same exactly if the values are the same after replacing texts that are not UTF-8 by empty ones and pointers to nothing by nothing. Files with the same JSON are written back as the same file. Floats that are not finite are an exception: files that differ only in them can have the same JSON.", "quantifier": "all pairs of files of the twelve types", "why_tests_cant": "it is a statement about all pairs of files; the README offers the comparison as a tool to find differences in unknown files", "anchors": ["ssbh_lib_json/README.md", "ssbh_lib_json/src/main.rs::write_json", "ssbh_lib/src/lib.rs::SsbhFile"]}
{"id": "C78", "title": "The version of saved data", "statement": "Saved data has in its header the version that the data says. Meshes, animations and materials with a version that cannot be saved are rejected and nothing is written. A material file of an old version saved as 1.6 opens with the same materials; converting materials to version 1.5 keeps everything except blend operations, alpha factors, fill mode and depth bias.", "quantifier": "all data values with version fields, all material files", "why_tests_cant": "all version numbers and all data; most tests use one version, none saves SkelData, ModlData or HlpbData with another version", "anchors": ["ssbh_data/src/mesh_data.rs::MeshData::write", "ssbh_data/src/anim_data/buffers.rs", "ssbh_data/src/matl_data.rs::MatlEntryData", "ssbh_data/src/skel_data.rs::SkelData", "ssbh_data/src/modl_data.rs::ModlData", "ssbh_data/src/hlpb_data.rs::HlpbData"]}
{"id": "C79", "title": "Names and numbers of enum values", "statement": "The text of an enum value is its name; parsing accepts exactly the names and gives the value with this name; a number gives the value that files store with this number and other numbers give none; iterating lists each value once; the JSON shows the same names.", "quantifier": "all values, texts and numbers of the 13 enums of ssbh_lib that have these functions: material parameters, fill and cull modes, wrap modes, filters, anisotropy, blend factors and operations, animation groups, billboard types, render pass formats", "why_tests_cant": "366 parameters and all texts and numbers; tests only show single values", "anchors": ["ssbh_lib/src/formats/matl.rs::ParamId", "ssbh_lib/src/formats/anim.rs::GroupType", "ssbh_lib/src/formats/skel.rs::BillboardType", "ssbh_lib/src/formats/nrpd.rs"]}
{"id": "C80", "title": "Opened data is not larger than the file allows", "statement": "Whatever counts a file declares, opening it never gives a list that is longer than the file: no more values of an animation track than the file has bits, no more vertices than bytes, at most half as many indices as bytes, no list or text of the other types longer than the file. Only the number of bone influences of a mesh object may grow with the square of the size.", "quantifier": "all byte strings; all data types (animations of version 2.x)", "why_tests_cant": "all inputs, in particular hostile ones: frame, vertex and index counts are 32 bit numbers from the file", "anchors": ["ssbh_data/src/anim_data/buffers.rs::read_compressed_inner", "ssbh_data/src/mesh_data/vector_data.rs", "ssbh_data/src/mesh_data.rs::MeshObjectData", "ssbh_data/src/adj_data.rs", "ssbh_data/src/meshex_data.rs", "ssbh_data/src/matl_data.rs"]}
{"id": "C81", "title": "Opening and saving a saved file gives the same file", "statement": "If ModlData, HlpbData, MatlData, SkelData, MeshExData, AdjData, AnimData or MeshData is saved, and the file is opened and saved again, the second file is byte for byte the first one, even though text after NUL, precision of components, and names of 1.8 attributes are lost when opening. Conditions: skeletons with parent indices below 32768; animations whose values are still the same after opening; meshes of less than 4 GiB with different names or subindices of objects, where 1.8 objects with binormals have another attribute; the limits of C45 for the rest. Each of the first three conditions is needed.", "quantifier": "all data of the eight types under the conditions; all versions that can be written", "why_tests_cant": "all data; a test compares the files of a few samples, and the loss of data between the files depends on the float values and texts", "anchors": ["ssbh_data/src/lib.rs::SsbhData", "ssbh_data/src/mesh_data.rs::create_mesh", "ssbh_data/src/mesh_data/mesh_attributes.rs", "ssbh_data/src/skel_data.rs", "ssbh_data/src/anim_data.rs::create_anim", "ssbh_data/src/matl_data.rs", "ssbh_data/src/meshex_data.rs"]}
{"id": "C82", "title": "Opening and saving a mesh file of another program keeps the data", "statement": "If a mesh file of any origin has only attribute formats which are used for saving (positions: any; three components, or two components before 1.10: any; two components in 1.10 and four components: half floats; colors of four components: bytes; 1.8 attributes numbered from 0 for each usage), then opening it with MeshData, saving it, and opening the saved file gives exactly the same MeshData, whatever the layout of the original file. With other formats the data may change.", "quantifier": "all byte strings which are mesh files with these formats, versions 1.8, 1.9 and 1.10; saved files of less than 4 GiB", "why_tests_cant": "all files, all float values (65536 half floats and all bytes in all positions), all layouts of buffers; test files were written by few programs", "anchors": ["ssbh_data/src/mesh_data.rs", "ssbh_data/src/mesh_data/vector_data.rs", "ssbh_data/src/mesh_data/mesh_attributes.rs"]}
{"id": "C83", "title": "Vectors and matrices", "statement": "The conversions between vectors, tuples, arrays and matrices keep every component at its place in both directions: float j of column i of to_cols_array is at byte 16 i + 4 j of a 4x4 matrix in a file (12 i + 4 j of a 3x3 matrix). The identity matrices leave all vectors as they are. min and max give for each component the smaller or larger of both; a component which is not a number is ignored.", "quantifier": "all vectors, matrices, arrays and files", "why_tests_cant": "all float values, including NaN and infinities; doc tests show one matrix and two vectors", "anchors": ["ssbh_lib/src/vectors.rs::Vector3", "ssbh_lib/src/vectors.rs::Vector4", "ssbh_lib/src/vectors.rs::Matrix3x3", "ssbh_lib/src/vectors.rs::Matrix4x4"]}
{"id": "C84", "title": "Saving an animation many times", "statement": "If AnimData is saved and opened n times in a row (n at least 1; fewer than 2^32 frames per track, files below 4 GiB), groups, nodes, tracks, flags, versions and the final frame index are those of the first data (names up to the first NUL), no track gets longer, and every stored component of every frame (the last frame for later times) is finite, differs from the first data by at most n times the bound of C52 and never by more than R, stays between the smallest and the largest first value, and is exact if it is the smallest or the largest. What was opened is always accepted for the next save (it fails only if a position exceeds 64 bits).", "quantifier": "all numbers of saves, all AnimData whose component values are finite with a range of at most the largest f32", "why_tests_cant": "any number of saves; the drift of each save depends on the rounding of floats for all values and ranges", "anchors": ["ssbh_data/src/anim_data.rs", "ssbh_data/src/anim_data/compression.rs::compress_f32", "ssbh_data/src/anim_data/compression.rs::decompress_f32"]}
{"id": "C85", "title": "Bounding boxes of saved meshes", "statement": "In a saved mesh, the axis-aligned box of each object is the smallest box around the positions of the object (its first position attribute) as read from the file, and the one of the mesh is the smallest around the positions of all objects. The oriented box beside it has the identity as axes, finite center and half sizes of at least 0, and in each direction it agrees with the axis-aligned box up to the largest absolute coordinate times 2^-24 (plus 2^-149): every position lies in it up to this slack and it does not reach farther. The slack is needed (an oriented box around 1 and 2^24 + 2 begins at 2), and so is the limit on the coordinates (the center for a coordinate of f32::MAX is infinite).", "quantifier": "all meshes whose files are below 4 GiB, all non-empty positions with finite coordinates of at most f32::MAX / 2", "why_tests_cant": "all float values and numbers of vertices; tests show a few points with small integer coordinates", "anchors": ["ssbh_data/src/mesh_data.rs::calculate_bounding_info", "ssbh_data/src/mesh_data.rs::create_mesh_inner", "ssbh_data/src/mesh_data.rs::create_mesh_object"]}
{"id": "C86", "title": "Saved animations do not grow", "statement": "If AnimData was saved to a file below 4 GiB (fewer than 2^32 frames per track), what is opened from the file can be saved again, the new file is not longer, and so on any number of times: all saves succeed and no file is longer than one before it. So C84 holds for every number of saves with a condition on the first file only. Values that are not finite are a real exception: an animation with an infinite scale is saved to a longer file the second time, since what is opened holds NaNs.", "quantifier": "all numbers of saves, all AnimData whose stored components are finite with at most the largest f32 between two frames", "why_tests_cant": "any number of saves; the size depends on which components and scales compare equal after rounding, for all values", "anchors": ["ssbh_data/src/anim_data.rs", "ssbh_data/src/anim_data/compression.rs", "ssbh_data/src/anim_data/buffers.rs"]}
{"id": "C87", "title": "Attributes of derived types", "statement": "For every list of attributes on a type, field or variant, #[derive(SsbhWrite)] accepts them if and only if every name = value in a #[ssbhwrite(...)] is for pad_after, align_after, alignment or magic and integers for the first three are from 0 to usize::MAX. Each option is then the last value that was written for its name, and repr the last #[ssbhwrite(repr(T))]. So order between different names, splitting into several attributes and attributes of other macros do not matter. The types of the ten formats with their attributes are accepted and give the types of C70 to C72. The full statement, that whatever is written has an effect or is rejected, is false: a literal of another kind (pad_after = \"4\", magic = \"MESH\") is ignored and removes an earlier value, alignment, magic and repr of fields and variants are ignored, and a repr beside other options in one attribute is ignored (then an enum without data is rejected).", "quantifier": "all lists of attributes, all type definitions", "why_tests_cant": "a macro is tested with a few fixed types; what is accepted and ignored needs all attributes", "anchors": ["ssbh_write_derive/src/lib.rs::get_write_options", "ssbh_write_derive/src/lib.rs::get_repr", "ssbh_write_derive/src/lib.rs::get_usize_arg", "ssbh_write_derive/src/lib.rs::ssbh_write_derive"]}
{"id": "C88", "title": "Opening and saving animations of other programs", "statement": "For every file that AnimData opens, whatever program wrote it (any packing of any width, any offsets, unused bytes; versions 2.0 and 2.1): saving what was opened fails with an error exactly if the final frame index does not reach the last frame of the longest track (or a position exceeds 64 bits), and there are such files. If it is saved (below 4 GiB), the saved file opens and shows the same versions, final frame index, groups, nodes and tracks in the same order with the same names, flags, scale compensation and types; no track is longer, the components and rotations are close to those shown before (C52, C55), and every boolean track, every track of pattern indices with fewer than 2^24 between two values, and every short track (transforms up to 5 frames, UV transforms 6, floats and pattern indices 10, vectors 7) shows exactly the same values. If all tracks are such, the saved file shows exactly the same data. Finite animations can then be saved any number of times without the file growing.", "quantifier": "all byte sequences that open as AnimData of version 2.0 or 2.1, tracks of up to 2^24 frames for the outcome", "why_tests_cant": "all files of other programs, with any compression parameters; test files come from one game", "anchors": ["ssbh_data/src/anim_data.rs", "ssbh_data/src/anim_data/compression.rs", "ssbh_data/src/anim_data/buffers.rs"]}
{"id": "C89", "title": "Arrays that share their elements", "statement": "Many arrays of a file can have the same elements. A version 2.0 or 2.1 animation file of n bytes that opens never has more than n/24 * n/24 * n/32 tracks (the groups, the nodes of a group and the tracks of a node that fit into n bytes). This cubic growth happens: for every k up to 2^32 there is a file of 72 + 80 k bytes which opens, as Anim and as AnimData, with k^3 tracks. Saving shares nothing: every saved animation has at least 24 bytes for each group, 24 for each node and 32 for each track, and a saved AnimData at least 32 for each track. So opening such a file and saving it, without any change, gives a file of 72 + 24 k + 24 k^2 + 32 k^3 bytes (k up to 800000). No linear bound on the memory for opened files or on the size of resaved files holds.", "quantifier": "all byte strings that open as animations; all k; all animations that are saved", "why_tests_cant": "a bound for all files and a family of files of every size; no test has overlapping arrays", "anchors": ["ssbh_lib/src/arrays.rs::SsbhArray::read_options", "ssbh_lib/src/formats/anim.rs", "ssbh_data/src/anim_data.rs::read_anim_groups", "ssbh_lib/src/lib.rs::Anim::read"]}
{"id": "C90", "title": "Opening files on platforms with 32 bit addresses", "statement": "Programs with 32 bit addresses, for example in a browser (WebAssembly), open files below 4 GiB like those with 64 bit addresses: every file that opens with 64 bits opens with 32 bits and gives the same value. The converse is exact: a file that opens with 32 bits opens with 64 bits, with the same value, if and only if the length in the header of each of its byte buffers is below 2^32; this covers all files of the formats without byte buffers. The positions of these headers are fixed by the format and the arrays of the file. Files with a larger length that do open exist: the same bytes are an error with 64 bits and an animation with 32 bits. AnimData opens from the same files and with the same tracks, errors and panics, except that a track can likewise have a length of 2^32 or more in the file, which is an error with 64 bits and is cut to the length modulo 2^32 with 32 bits. MeshData and ShdrData show the same values, errors and panics with 32 bits for every file that opens as a mesh or shader file with 64 bits, and differ only for files with such buffers.", "quantifier": "all byte strings below 2^32 bytes, all formats and versions, all values", "why_tests_cant": "Test suites run on one platform, usually with 64 bits, and with files whose lengths are small. The difference depends on lengths in the file that only agree with its size modulo 2^32.", "anchors": ["ssbh_lib/src/arrays.rs:247-290", "ssbh_lib/src/lib.rs:182-260", "ssbh_lib/src/lib.rs:496-537", "ssbh_data/src/anim_data.rs:502-567", "ssbh_data/src/mesh_data.rs:382-429", "ssbh_data/src/shdr_data.rs:391-426"]}
{"id": "C91", "title": "Bounding spheres contain the vertices", "statement": "In a saved mesh, the bounding sphere of each object contains the positions of the object (its first position attribute) as read from the file, and the one of the mesh contains the positions of all objects. In the MeshEx file saved from MeshExData::from_mesh_objects, object i of the mesh has entry i; the group with the index in this entry has the name of the object (up to the first NUL); its sphere contains the positions of the object, and so does the sphere of everything. The precision is that of the functions which compute a sphere around points and a sphere around spheres: what they are off is added up, the library adds nothing. Groups consist of neighbouring objects of the same name.", "quantifier": "all meshes with finite positions whose files are below 4 GiB and without two objects of the same subindex and name; all lists of fewer than 2^32 mesh objects with finite positions; all finite spheres", "why_tests_cant": "Tests check that the radius of one group is larger than 1. They can not show for all lists of objects that the entry, the group and the sphere with an index belong to the object with this index, and that no point is forgotten or swapped.", "anchors": ["ssbh_data/src/meshex_data.rs:54-91", "ssbh_data/src/meshex_data.rs:184-246", "ssbh_data/src/mesh_data.rs:1198-1222", "ssbh_data/src/mesh_data/vector_data.rs:66-73"]}
{"id": "C92", "title": "Incomplete files", "statement": "A saved file that lost its end, for example in an interrupted copy or download, is noticed: if the first part of a saved SSBH or MeshEx file still opens, it gives exactly the saved value, and what is missing are only zero bytes, at most 23 of them (at most 31 for MeshEx). In every other case opening it is an error. The same holds for files saved by the types of ssbh_data: if the first part opens, it opens as the same data as the whole file, and only these zero bytes are missing. For all files, saved or not: what opens also opens with any bytes appended, with the same contents, so two parts of a file from its start never open with different contents. Adj files are the exception: they do not contain their length, so an Adj file that is cut anywhere after its entries opens with fewer indices; cut before, it is an error.", "quantifier": "all byte strings, all values of all formats and versions, all positions where the file ends (counts of MeshEx below 2^32)", "why_tests_cant": "A claim about every position in every file. Tests open whole files or single truncated structures; whether some other position gives a value that differs can not be seen from them.", "anchors": ["ssbh_lib/src/lib.rs::Ssbh::read", "ssbh_lib/src/lib.rs:180-200", "ssbh_lib/src/arrays.rs:247-290", "ssbh_lib/src/strings.rs", "ssbh_lib/src/formats/meshex.rs", "ssbh_lib/src/formats/adj.rs"]}
{"id": "C93", "title": "Small changes", "statement": "Changing numbers, enum values, bytes of buffers or characters of names in a value, without changing lengths, what is null or which variant is used, changes the saved file only in as many bytes as were changed in the value (all bytes of a number or enum count if it changes): the new file has the same length, nothing moves, and saving succeeds if it succeeded before, for all formats. The same holds for every type that derives SsbhWrite, on every platform. For materials in ssbh_data: changing the value of a vector parameter changes at most 16 bytes of the file; replacing a texture by one with a name of the same length changes only the differing characters of the name; in general no more bytes change than those of the numbers (4 bytes each; the anisotropy of a sampler is saved in two places), parameter ids (8 bytes) and characters that were changed. For meshes in ssbh_data: changing numbers of attributes, the sort bias or the depth flags changes no more bytes than those of the changed numbers, plus 100 bytes of bounding information for each object whose first positions changed and 100 bytes for the whole mesh; so moving one vertex changes at most 212 bytes, changing a texture coordinate at most 8, and changing the sort bias of an object at most 4, and saving still succeeds, whatever the bounding information is calculated to be. For models in ssbh_data: giving a mesh object another material with a label of the same length changes only the differing characters, and in general for models and helper bones no more bytes change than those of the numbers and characters that were changed. For skeletons in ssbh_data with unchanged parents: no more bytes change than those of the names and billboard types, 128 bytes for each bone whose transform changed, and 128 bytes for each bone whose world transform may change, which are the changed bones and those below them; so moving a bone without children changes at most 256 bytes of the file, and saving still succeeds. For groups of mesh objects (MeshExData): no more bytes change than those of the bounding spheres, flags (2 bytes per entry) and characters that were changed, plus the 16 bytes of the bounding sphere of everything if one of the spheres changed; so switching the flags of an entry changes at most 2 bytes. For AdjData: no more than 4 bytes for each changed index of an object and 2 bytes for each changed index of a vertex. For animations: changing values of a track without changing their number and type, such that their encoding is as long as before, changes only the differing bytes of the encoding; for tracks with few frames (at most 5 transforms, 6 texture transforms, 7 vectors, 10 numbers or 34 booleans), which are not compressed, these are at most the bytes of the changed values (44, 20, 16, 4, 1), and for visibility tracks of any length at most one byte per changed frame; saving still succeeds, and other tracks do not change.", "quantifier": "all pairs of values of each of the 12 formats and all versions of the same shape; all types made with the derive macro; all MatlData, ModlData, HlpbData; all SkelData and all operations on matrices; all MeshData, all ways to calculate bounding information and to convert floats; any number of simultaneous changes; all MeshExData and all ways to calculate bounding spheres; all AdjData; all AnimData of all versions and all operations on floats", "why_tests_cant": "It compares two runs of the writer for all pairs of values. Tests compare single files with expected bytes, so a writer that lets contents influence the layout (deduplicating strings, trimming buffers, reordering) could pass them.", "anchors": ["ssbh_write_derive/src/lib.rs", "ssbh_write/src/lib.rs", "ssbh_lib/src/lib.rs:640-732", "ssbh_lib/src/strings.rs", "ssbh_lib/src/arrays.rs", "ssbh_lib/src/formats/meshex.rs:107-165", "ssbh_lib/src/formats/adj.rs:60-78", "ssbh_data/src/matl_data.rs:503-598", "ssbh_data/src/mesh_data.rs:676-1068", "ssbh_data/src/mesh_data/mesh_attributes.rs:21-383", "ssbh_data/src/modl_data.rs:95-132", "ssbh_data/src/hlpb_data.rs:91-212", "ssbh_data/src/skel_data.rs:151-197", "ssbh_data/src/skel_data.rs:263-291", "ssbh_data/src/meshex_data.rs:184-246", "ssbh_data/src/adj_data.rs:132-156", "ssbh_data/src/anim_data.rs:214-360", "ssbh_data/src/anim_data/buffers.rs:22-166"]}
{"id": "C94", "title": "MeshEx and Adj files inside a larger stream", "statement": "A MeshEx file written at any position of any seekable stream is read back from that position, also after more data is appended. But it is not independent of the stream: the length it stores is the length of the whole stream and goes to the first eight bytes of the stream, not of the file, whose own length field stays 0 (if it is at position 8 or later); the stream is padded to a multiple of 16 and left at position 8. All other bytes before the file are kept and a gap is filled with zeros. So any number of SSBH and MeshEx files written one after another at multiples of 16 are all read back, except for an SSBH file at the start of the stream, which never opens again once a MeshEx was written anywhere. A MeshEx cut out of the stream is not the same file any more. An Adj file written at any position replaces exactly the bytes of the file written on its own and leaves the stream at its end; reading it gives its entries, and its indices followed by everything after it in the stream taken as more indices, so it is read back exactly if at most one byte follows. Of two Adj files in a row the second one is read back and the first one never.", "quantifier": "all MeshEx and Adj values with fewer than 2^32 entries, flags and groups, all SSBH files, all stream contents and positions, any number of files", "why_tests_cant": "The effect depends on the position and on everything already in the stream, and on what is written later; the tests write to an empty cursor at position 0, where the start of the stream and the start of the file are the same.", "anchors": ["ssbh_lib/src/formats/meshex.rs:107-165", "ssbh_lib/src/formats/meshex.rs:17-41", "ssbh_lib/src/formats/adj.rs:17-78", "ssbh_lib/src/lib.rs:277-287", "ssbh_lib/src/lib.rs:362-390", "ssbh_write/src/lib.rs:53-57"]}
{"id": "C95", "title": "Writing to memory of a fixed size", "statement": "`write` also takes a Cursor<&mut [u8]>, or a file on a device that gets full. At a multiple of 16, a value that can be written without a limit is written if and only if the end of the file (its length written on its own) is within the room; and then the result is the same as without the limit. Mesh and Anim 2.1 pad the stream and not the file, so they also need the old length of the stream rounded up to 8 within the room, and MeshEx the old length rounded up to 16: a slice whose length is no multiple of 8 (16) takes no Mesh or Anim 2.1 (no MeshEx) at all, however large it is. Otherwise the writer reports an error. A slice into which an SSBH file was written keeps its length and all bytes before and after the file, and the value is read back; a slice of zeros then holds the bytes of the file followed by zeros. So a slice of zeros of exactly the length of the file takes every SSBH file and holds exactly its bytes, and any shorter one is an error. A slice with a MeshEx (at any position) also keeps its length and the MeshEx is read back, with the length of the slice stored instead of its own. An Adj at any position is written if and only if its end is within the room, and is read back from the slice if and only if at most one byte follows; otherwise the rest of the slice becomes indices.", "quantifier": "all values of the ten formats, MeshEx (fewer than 2^32 entries, flags and groups) and Adj, all contents, all room, all positions that are multiples of 16 (any for Adj)", "why_tests_cant": "The tests write to growing vectors only. Whether a write fits depends on the value, the position, the old content's length and the format's padding; success and failure have to be exact for every size.", "anchors": ["ssbh_lib/src/lib.rs:188-193", "ssbh_lib/src/lib.rs:284-287", "ssbh_lib/src/lib.rs::write_ssbh_file", "ssbh_write_derive/src/lib.rs:360-377", "ssbh_lib/src/formats/meshex.rs:107-165", "ssbh_lib/src/formats/adj.rs:45-78"]}
{"id": "C96", "title": "Data in a larger stream", "statement": "`read` and `write` of ssbh_data also take any seekable stream. Data of the six types stored in SSBH files (MeshData, AnimData, MatlData, ModlData, SkelData, HlpbData) written at a multiple of 16, over any existing data, is read from that position with exactly the result (the same data, the same error or, for AnimData, the same panic) that reading the file written on its own has, also after more data is appended; everything before the file and after its length is kept. It can be written there if it can be written on its own and the end is not after position 2^64 - 8, and it fails to convert for the one writer if and only if it does for the other. MeshExData written at any position is read back with names cut at NUL; of what is before it only the first eight bytes of the stream are lost. AdjData is not kept: its last entry gets everything that follows in the stream as more adjacent vertices, so of two values one after the other the first one is read wrongly, without an error.", "quantifier": "all data, all stream contents, all positions that are multiples of 16 (any position for MeshExData and AdjData), everything appended; MeshExData with fewer than 2^32 groups and flags, AdjData with fewer than 2^32 entries, object indices and byte offsets", "why_tests_cant": "The tests convert values or write to an empty cursor. The result depends on the position and on everything else in the stream.", "anchors": ["ssbh_data/src/lib.rs:100-237", "ssbh_lib/src/lib.rs:220-295", "ssbh_data/src/adj_data.rs:166-207", "ssbh_lib/src/formats/meshex.rs:107-165"]}
{"id": "C97", "title": "Accuracy of world transforms and transformed points", "statement": "The world transform that `SkelData` calculates for a bone is the product of the transforms of its ancestors and the bone, up to rounding: for n ancestors (at most 2^20) with finite transforms, every number of it is finite and off from the exact product by at most n / 2^21 of the product of the absolute values of the matrices (with 2^-125 added after each product), provided these stay below 2^126 on the way. The same holds for the world transforms in a saved Skel file. If all transforms consist of whole numbers and the absolute values add up to at most 2^24 on the way there is no error, and below ancestors whose transform is the identity the numbers of the bone's transform do not change. `transform_points` gives the matrix times (x, y, z, 1) and `transform_vectors` the matrix times (x, y, z, 0), where each component is off by at most 5 / 2^24 of the absolute values that are added up, and 2^-147. Without the limit the result can be infinite although all transforms are finite.", "quantifier": "all skeletons, bones and depths up to 2^20, all vector data and matrices; every matrix product with the rounding error of three sums and four products of floats", "why_tests_cant": "The tests compare a few chains of three bones with constants up to a tolerance. How errors add up over a chain of any length depends on all transforms.", "anchors": ["ssbh_data/src/skel_data.rs::calculate_world_transform", "ssbh_data/src/skel_data.rs:151-197", "ssbh_data/src/mesh_data.rs::transform_points", "ssbh_data/src/mesh_data.rs::transform_vectors"]}
{"id": "C98", "title": "Saving that is stopped or fails half way", "statement": "Whenever a call of `write_to_file` is stopped (the program is killed, the disk is full, a call of the operating system fails or is interrupted), and whatever other programs do to other files or read from this one, the file is as it was (if it had not been created), or empty if the value cannot be written, or has the first bytes of the new file, and all of them exactly if `write_to_file` returned `Ok`; once created it only grows, so an error does not take away what was written. So the file is the old one, or opening it with `from_file` is an error or gives exactly the new value, and the new value after `Ok`: never a third value. This holds for all types of ssbh_lib and ssbh_data but Adj, where the file may open with the first of its indices. If an incomplete file opens, only zero bytes at its end are missing. Data of ssbh_data that cannot be converted leaves the file alone. Other files do not change. If no call fails it ends after at most as many writes as there are bytes. But the old file is not kept until the new one is complete: a program that is stopped directly after the file has been created leaves an empty file, which opens as no type.", "quantifier": "all values of all types, all old files, all points where the program stops, all answers of the operating system, all other programs", "why_tests_cant": "A unit test cannot stop the program between two calls of the operating system, and there is a different result for each number of bytes that were written.", "anchors": ["ssbh_lib/src/lib.rs:174-201", "ssbh_lib/src/lib.rs:225-257", "ssbh_lib/src/lib.rs:267-295", "ssbh_lib/src/lib.rs::write_buffered", "ssbh_data/src/lib.rs:121-128", "ssbh_data/src/lib.rs:189-194"]}
{"id": "C99", "title": "Programs that save and open the same file at the same time", "statement": "A file to which nobody saves opens with its contents, however many bytes each call of the operating system gives. If one program saves to a file while another one opens it, what is opened consists of first bytes of the old file, followed by bytes of the new file from that position on; if opening begins after the file has been created it is an error or gives the new value. If any number of programs save to the same file and the operating system writes all bytes of each of them in one call, the file is at any time the old one, empty, or begins with all bytes of a program whose `write_to_file` returned `Ok`; and if all of them returned `Ok` it opens as the value of one of them (all types but Adj). For any sizes of the calls each byte is the one that some program has at this position, or zero, and the file is not longer than the longest; if all programs save the same bytes and returned `Ok` the file has exactly these bytes. Otherwise there is no protection: opening during a save, and two saves with several calls each, can give a value that nobody saved.", "quantifier": "all values, all old files, all numbers of programs, all orders of their calls and all answers of the operating system", "why_tests_cant": "The result depends on the order of the calls of several programs, which a test does not control; there are more orders than can be tried.", "anchors": ["ssbh_lib/src/lib.rs:174-201", "ssbh_lib/src/lib.rs:225-257", "ssbh_lib/src/lib.rs:267-295", "ssbh_lib/src/lib.rs::write_buffered"]}
{"id": "C100", "title": "Equal files have equal contents", "statement": "Two saved files of ssbh_lib are equal exactly if the values are equal, and no saved SSBH or MeshEx file is the beginning of the file of another value. For ssbh_data, two saved files are equal exactly if the data are equal as far as they are saved: names up to the first NUL for models, helper bones, materials, skeletons and MeshExData, all data for AdjData, for meshes also the precision of the storage types (and for version 1.8 neither binormals nor names of attributes). Two animation files are equal exactly if the version, the final frame index, the groups, the names up to the first NUL, and the flags, types, numbers of values and encodings of all tracks are equal; tracks with few frames and boolean tracks then have equal values, while compressed tracks with different values may have the same file. So comparing files byte by byte, or with a checksum, compares the contents: a difference in the data that is saved is never hidden.", "quantifier": "all pairs of values of the twelve formats (fewer than 2^32 elements of the arrays of MeshEx and Adj) and of the eight data types that can be saved (the limits of C45 and C81)", "why_tests_cant": "all pairs of values; a test compares the files of a few values that differ in a chosen place", "anchors": ["ssbh_lib/src/lib.rs:640-732", "ssbh_lib/src/formats/meshex.rs:107-165", "ssbh_lib/src/formats/adj.rs:60-78", "ssbh_data/src/lib.rs::SsbhData", "ssbh_data/src/anim_data.rs:214-360", "ssbh_data/src/mesh_data.rs::create_mesh", "ssbh_data/src/skel_data.rs", "ssbh_data/src/matl_data.rs", "ssbh_data/src/modl_data.rs", "ssbh_data/src/hlpb_data.rs", "ssbh_data/src/meshex_data.rs", "ssbh_data/src/adj_data.rs"]}
{"id": "C101", "title": "Data written to memory of a fixed size", "statement": "`write` of ssbh_data also takes a Cursor<&mut [u8]>, or a file on a device that gets full. Data of the six types stored in SSBH files, written at a multiple of 16, fits exactly if the end of the file (its length written on its own) is within the room; MeshData and AnimData of version 2.1 also need the old length of the stream rounded up to 8 within the room, so a slice whose length is no multiple of 8 takes none of them, however large it is. Data that fits gives the result it has without the limit; other data is an error and never a truncated file that is reported as written. A slice keeps its length and everything before and after the file, and reading from it has exactly the result that reading the file written on its own has. A zeroed slice of exactly the length of the file takes it and holds exactly its bytes; any shorter one is an error. Data that cannot be converted is an error of the conversion, whatever the room. A slice that takes MeshExData has a length that is a multiple of 16, and the data is read back with names cut at NUL. AdjData fits exactly if its end is within the room, but is read back only if at most one byte of the slice follows; otherwise the last entry gets the rest of the slice as adjacent vertices.", "quantifier": "all data of the eight types, all contents, all room, all positions that are multiples of 16 (any for AdjData and for reading MeshExData back); MeshExData with fewer than 2^32 groups and flags, AdjData with fewer than 2^32 entries, object indices and byte offsets", "why_tests_cant": "Whether data fits depends on every size in it, and the limit may be reached at any of the writes; a test tries a few sizes.", "anchors": ["ssbh_data/src/lib.rs:115-119", "ssbh_data/src/lib.rs:182-187", "ssbh_lib/src/lib.rs:246-249", "ssbh_lib/src/lib.rs:284-287"]}
{"id": "C102", "title": "Floats in the text of JSON", "statement": "A decimal of at most nine digits that is nearer to some finite 32 bit float than to any other float, and differs from it by less than one unit of its last digit, is read from JSON as exactly this float with its sign, in each of the layouts in which floats are printed (with zeros, with a point, with an exponent). So for every way to choose such decimals the printed text of every finite float, also of both zeros, is read as the same bits, and different floats have different texts. Such a decimal always exists; the shortest one, which is what is printed, is one of them and has the largest exponent. The reader rounds a product of two 64 bit floats to a 32 bit float, so this depends on the text and not only on the number: 7.038531e-26 is read as the float it is the shortest decimal of, 7.0385310e-26 is read as its neighbour. 1e39 is read as infinity, 1e309 is rejected.", "quantifier": "all finite floats, all decimals of up to nine digits and all exponents, all choices of decimals", "why_tests_cant": "There are 2^32 floats and many decimals for each, and the reader is not correctly rounding: whether its error ever reaches the middle between two floats has to be bounded for all of them.", "anchors": ["ssbh_lib_json/src/main.rs:42-49", "ssbh_lib_json/src/main.rs:51-81", "ssbh_data_json/src/main.rs:27-32", "ssbh_data_json/src/main.rs:38-52"]}
{"id": "C103", "title": "The text of JSON files", "statement": "The text that the JSON programs print for any file of ssbh_lib or any data of ssbh_data is read back as exactly the same JSON value: names with any characters, integers, floats, nesting. In general a JSON value with integers of 64 bits and finite floats is read back from its text if arrays and objects are nested at most 127 deep, and its text is rejected if they are nested deeper. Different values have different texts. White space before and after the text is accepted; if anything else follows, the whole text is rejected. The text has no control characters except ends of lines. Converting a file to JSON and back with either program therefore has the result of C74, with nothing assumed about the text.", "quantifier": "all JSON values, all files of ssbh_lib and ssbh_data, all printers of floats as in C102, all characters around the text", "why_tests_cant": "The values are trees of any size with any strings and floats; a test prints and reads some of them.", "anchors": ["ssbh_lib_json/src/main.rs:20-104", "ssbh_data_json/src/main.rs:20-105", "ssbh_data/src/skel_data.rs:48-59", "ssbh_data/src/adj_data.rs:66-74"]}
{"id": "C104", "title": "JSON that is cut short", "statement": "If a JSON text is read as anything but a number, it is read as the same value with white space after it and rejected with anything else after it, so no text has an accepted beginning and goes on with more than white space. The beginning of the text printed for an array or an object, cut off anywhere (also inside of a character), is rejected. So both JSON programs do nothing with an incomplete JSON file that was printed for a file or data: nothing is written, and they do not end as if it had been. If the program that writes the JSON file is stopped anywhere, or calls of the operating system fail, the JSON file is the old one, or complete (and then writing it returned without an error), or the programs refuse it. Numbers alone are different: 12 and its beginning 1 are both read.", "quantifier": "all texts, all JSON values nested at most 127 deep, all files and data, all places where the text ends, all points where the writing program stops", "why_tests_cant": "A text can be cut at any character and any byte of it, and each of these beginnings would have to be tried for every file.", "anchors": ["ssbh_lib_json/src/main.rs:42-81", "ssbh_data_json/src/main.rs:21-52"]}
{"id": "C105", "title": "Which texts are JSON", "statement": "A text is read as a JSON value if and only if the grammar of RFC 8259 derives the text for this value (white space, numbers, strings with all of their escapes and surrogate pairs, arrays and objects), and arrays and objects are nested at most 127 deep. Every number in it has the value that it has alone. So any other text, such as one with trailing commas, comments or single quotes, is rejected, and no text has two values. An integer is read exactly if it fits into 64 bits, with or without a sign; other integers, -0, and numbers with a fraction or an exponent are read as floats or rejected. How a JSON file is formatted does not matter to either JSON program: two texts of the same value have the same outcome and the same output file.", "quantifier": "all texts, all JSON values, all numbers of any length, all files and paths", "why_tests_cant": "There are infinitely many texts of each value, and infinitely many texts that are almost JSON.", "anchors": ["ssbh_lib_json/src/main.rs:52-104", "ssbh_data_json/src/main.rs:34-106"]}
{"id": "C106", "title": "How exact numbers in JSON are", "statement": "A number in JSON with a fraction or an exponent, or an integer that does not fit into 64 bits, may have any number of digits, and its point and exponent may be anywhere. If the number is nearer to one finite 32 bit float than to all others, by a margin of 2^-48 of the number, it is read as this float, with its sign. In particular the exact decimal expansion of any finite float, as other programs may write it, is read as exactly this float. In the normal range up to 2^127 every number is accepted, keeps its sign, and the float that is read differs from the number in the text by at most a part of 2^-24 + 2^-48 of it. Numbers up to 2^-159, also 0, are read as the zero with their sign. Numbers from 2^129 on are rejected or read as the infinite float with their sign. An integer that fits into 64 bits, where a float is expected, is read as the nearest float without any margin. Another number without the margin may be read as the second nearest float: 7.0385310e-26 is.", "quantifier": "all number texts of the JSON grammar, all finite floats", "why_tests_cant": "There are infinitely many texts of each number. The digits after the first 64 bits are dropped, and the rest is rounded up to four times in two formats.", "anchors": ["ssbh_lib_json/src/main.rs:52-104", "ssbh_data_json/src/main.rs:34-106", "ssbh_lib_json/Cargo.toml:9", "ssbh_data_json/Cargo.toml:8"]}
{"id": "C107", "title": "Editing a JSON file by hand", "statement": "Every part of the value of a JSON text has a piece of the text that is read as this part. If a user replaces this piece by any text of another value and leaves everything else, the result is read as the same value with only this part replaced, unless it becomes nested deeper than 127. All parts beside it remain. Both JSON programs treat the edited file like any other text of the new value. In particular, in the JSON of a mesh, skeleton, animation, model, material, helper bone, MeshEx or adjacency file the text of any element of its lists (mesh object, bone, group, entry, constraint) can be replaced by any text that is accepted for such an element, whoever wrote it: ssbh_data_json reads the same data, of the same type, with only this element replaced.", "quantifier": "all JSON texts and formattings, all parts at any depth, all new texts, all data files with finite numbers", "why_tests_cant": "The claim is about every place in every text and every replacement. A test edits one place of one file.", "anchors": ["ssbh_lib_json/src/main.rs:52-104", "ssbh_data_json/src/main.rs:34-106"]}
{"id": "C108", "title": "Changing a file by editing its JSON", "statement": "A user converts a mesh, skeleton, animation, model, material, helper bone, MeshEx or adjacency file to JSON with ssbh_data_json, replaces the text of one element of a list (mesh object, bone, group, entry, constraint) by any text that is accepted for an element, and converts the JSON back. Both runs succeed if the changed data can be saved and the files may be created. The new file has the extension of the original and is exactly what saving the opened data with this element replaced gives. The original file and all other files are as before. Opening the new file gives the data of the original file, whoever made it, with only this element replaced, for skeletons, models, materials, helper bones, MeshEx files (fewer than 2^32 flags) and meshes (less than 4 GiB, attributes in the formats used for saving, no NUL in the name of the new object); the new element loses only text after NUL characters, parents from 32768 on, and what the formats of mesh attributes do not keep.", "quantifier": "all files whose data has only finite numbers, all folders, all elements, all new texts of elements (nested at most 125 deep), all printers of floats as in C102", "why_tests_cant": "The claim joins the binary reader, the conversion, the printer and the parser of JSON and the binary writer for every file and every edit.", "anchors": ["ssbh_data_json/src/main.rs:21-106", "ssbh_data/src/lib.rs:101-194"]}
{"id": "C109", "title": "Which edits of JSON are accepted", "statement": "The form of a type (C73) says of every part of its JSON, at any depth, which values are accepted in its place: a text, an integer of a range, a number, one of the names of an enum, an array of a length, an object with certain entries, null for pointers and options. If a user edits one part of the JSON of a file below the top, ssbh_lib_json accepts the result exactly if the form of this part accepts the new value, and ssbh_data_json accepts it if the form does. The file is then of the same type as before, its JSON has the canonical form of the new value in this place, and every other part is the same. If the form does not accept the value then ssbh_data_json does not accept the file, except for models and materials: a model without entries with a wrong name is read as materials without entries, and materials without entries with a wrong version are read as adjacency data without entries. The same holds for edits of the text.", "quantifier": "all files whose JSON is accepted (finite numbers), all parts below the top at any depth, all new values, all texts of the JSON and of the new value (nested at most 127 deep together)", "why_tests_cant": "Every field of every type, in every file, has its own set of accepted values; a test can try some values for some fields and cannot show that no other part changes or that no other type takes the edited file.", "anchors": ["ssbh_lib_json/src/main.rs:52-91", "ssbh_data_json/src/main.rs:38-106"]}
{"id": "C110", "title": "Changing any field of a file through its JSON", "statement": "A user converts a file of any format to JSON with ssbh_lib_json, replaces the text of any one part of the JSON below the top (a number, a name, a list, an entry, an object, at any depth) by another text, and converts the JSON back. If the form of this part (C109) does not accept the new value then nothing is written. Otherwise the new file has the extension of the format, it is read as a file whose JSON is the JSON of the original with only this part replaced by the canonical form of the new value, and so showing it again shows exactly the edit. The run panics if the new file cannot be written (too large, different counts in a MeshEx). The original and all other files stay as they are. With ssbh_data_json, which panics if the value is not accepted (except for models and materials, see C109), the new file is what saving data gives whose JSON has only this part replaced.", "quantifier": "all files of the twelve formats and the eight data types whose JSON is accepted (finite numbers), all folders, all parts below the top, all new texts (nested at most 127 deep together with the path), all printers of floats as in C102; for reading MeshEx and Adj files again counts below 2^32", "why_tests_cant": "The claim joins the binary reader, the JSON of all types, the printer and the parser of JSON and the binary writer for every file, every field and every new value.", "anchors": ["ssbh_lib_json/src/main.rs:12-104", "ssbh_data_json/src/main.rs:21-106"]}
{"id": "C111", "title": "Parts that do not affect each other", "statement": "If the same track is saved in two animations (2.0 or 2.1), at any positions, then opening the two files gives the same track, whatever else the animations have. What is opened for a track of any 2.0 or 2.1 file, also of another program, depends only on its name, type, compression, number of frames and flags, and on the bytes in its range, not on where the range is, whether tracks share it, or on other tracks; a file can be opened exactly if it can be opened with each of its tracks alone. The same mesh object saved in two meshes of one version, where no two objects have the same name and subindex, is the same in both when opened. The world transform of a bone (or the error for a cycle), and its four matrices in the saved file, depend only on the bone and its ancestors: changing a bone, or adding bones at the end, does not change the matrices of bones that are not its descendants.", "quantifier": "all animations of less than 4 GiB with fewer than 2^32 frames per track, all animation files of version 2.0 and 2.1, all meshes of less than 4 GiB, all skeletons and edits; adding bones: for bones with no missing parent", "why_tests_cant": "It compares all pairs of files which have a part in common, whatever the rest of them is.", "anchors": ["ssbh_data/src/anim_data.rs:214-336", "ssbh_data/src/anim_data.rs:502-567", "ssbh_data/src/mesh_data.rs:624-739", "ssbh_data/src/skel_data.rs:263-291", "ssbh_data/src/skel_data.rs:151-197"]}
{"id": "C112", "title": "Mesh objects of any mesh", "statement": "What is opened for an object of a mesh file of any version, also of another program, depends only on its fields and on the data it refers to: vertex indices, the vertices in the buffers and the weights with its name and subindex. The same object in another mesh of the same version, at another position and with its data at another place of the buffers and with anything before and behind it, is opened as the same object, whatever the other objects, buffers and weights are. A mesh that is put together from objects of meshes that can be opened can be opened.", "quantifier": "all meshes of version 1.8, 1.9 and 1.10, all objects, offsets, strides, attributes and places of the data", "why_tests_cant": "It compares all pairs of meshes that have an object in common, with any arrangement of the data in the buffers.", "anchors": ["ssbh_data/src/mesh_data.rs:212-224", "ssbh_data/src/mesh_data.rs:382-468", "ssbh_data/src/mesh_data.rs:632-674", "ssbh_data/src/mesh_data/vector_data.rs:324-357"]}
{"id": "C113", "title": "Comparing data with ==", "statement": "Two values of HlpbData, MatlData, SkelData, MeshExData or AnimData are equal (`==`) if and only if they are the same but for the signs of zeros and neither contains a NaN; finite floats are equal exactly if they have the same value. So == is symmetric and transitive, and a value is equal to itself if and only if it contains no NaN. A program that opens a hlpb, matl, skel or meshex file, saves it and opens it again gets data that is equal to the first one if and only if that contains no NaN. Equal data can still be saved as different files.", "quantifier": "all values of the five types, all files", "why_tests_cant": "It is about all pairs and triples of values and every float at any depth of them; round trip tests of the crate use == and would report a difference for files with a NaN.", "anchors": ["ssbh_data/src/hlpb_data.rs:13-58", "ssbh_data/src/matl_data.rs:81-120", "ssbh_data/src/skel_data.rs:33-60", "ssbh_data/src/meshex_data.rs:21-45", "ssbh_data/src/anim_data.rs:68-80", "ssbh_data/src/anim_data.rs:572-735", "ssbh_lib/src/vectors.rs:10-16"]}
{"id": "C114", "title": "Saving data that a program made", "statement": "If data can be saved then the data opened from the saved file is equal (`==`) to it exactly under these conditions: ModlData: the version is 1.7 and no text contains a NUL character. HlpbData: the version is 1.1, no text contains NUL and no float is a NaN. MatlData: no text contains NUL and no float is a NaN (other versions than 1.6 cannot be saved). SkelData: the version is 1.0, no bone name contains NUL, parent indices are below 32768 and no float is a NaN. MeshExData: no text contains NUL and no float is a NaN. AnimData whose tracks have at most 5 transforms, 6 UV transforms, 10 floats, 10 pattern indices or 7 vectors, or any number of booleans: no name of a node or track contains NUL, only tracks with a transform compensate the scale, and no float is a NaN. Data that can be saved but does not meet these conditions is opened as different data without any error.", "quantifier": "all values of the six types that can be saved (MeshExData: with fewer than 2^32 groups and flags, AnimData: with fewer than 2^32 frames and less than 4 GiB of track data)", "why_tests_cant": "It names for all values which of them do not survive saving; a test compares single values.", "anchors": ["ssbh_data/src/modl_data.rs:54-139", "ssbh_data/src/hlpb_data.rs:62-212", "ssbh_data/src/matl_data.rs:471-598", "ssbh_data/src/skel_data.rs:143-235", "ssbh_data/src/meshex_data.rs:128-247", "ssbh_data/src/anim_data.rs:338-360"]}
{"id": "C115", "title": "The order of bones", "statement": "The order of the bones of SkelData does not matter: if bones are moved to other positions and the parent indices are changed accordingly then calculate_world_transform gives the same matrix for each bone, or reports the same cycle with the new index, and the four matrices of each bone in a saved file are the same. A reordered skeleton can be saved if and only if the original can. If the bones of a skeleton, with indices shifted, are added behind those of a skeleton in which no parent is missing, the result can be saved if and only if both can, and its matrices are those of the first followed by those of the second. With a missing parent in the first skeleton this can be wrong.", "quantifier": "all skeletons, all injective renumberings, all matrix arithmetic", "why_tests_cant": "It relates all pairs of skeletons with the same bones in any order, including cycles and missing parents, to any depth.", "anchors": ["ssbh_data/src/skel_data.rs:151-197", "ssbh_data/src/skel_data.rs:263-303"]}
{"id": "C116", "title": "Opening and saving material files", "statement": "A matl file of version 1.6, of any program, that is opened as MatlData and saved gives a file with the same number of materials in the same order. The attributes of each material are those of the opened one sorted by type (blend states, booleans, floats, vectors, rasterizer states, samplers, textures, UV transforms), in the same order within each type and with the same ids. Floats, vectors and UV transforms keep all bits; booleans other than 0 become 1; labels and textures keep their bytes, or become the empty string if they were null or not UTF-8; blend states, rasterizer states and samplers keep all fields but the ones that are not in the data, which get fixed values (alpha to coverage becomes 0 or 1); an anisotropy without anisotropic filtering becomes one. Exactly the attributes without value and those of type 7 are lost, without any error. The order between attributes of different types does not matter for the opened material.", "quantifier": "all files of version 1.6 that can be opened and saved again", "why_tests_cant": "It is about every file, with attributes in any order and any values; the crate is tested with single attributes and files of the game.", "anchors": ["ssbh_data/src/matl_data.rs:197-248", "ssbh_data/src/matl_data.rs:407-425", "ssbh_data/src/matl_data.rs:459-598", "ssbh_data/src/matl_data.rs:682-772", "ssbh_lib/src/formats/matl.rs:118-134"]}
{"id": "C117", "title": "Files that opening and saving does not change", "statement": "A file of any program that is opened as data and saved has the same contents afterwards exactly under these conditions. ModlData: every string of the file is present and valid UTF-8. HlpbData: also the six unused numbers of each aim constraint are zero and the two lists of constraints name the aim constraints and then the orient constraints, numbered from zero. MatlData (version 1.6): labels and textures are present and valid UTF-8, the attributes of each material are sorted by type in the order of saving, each has a value of another type than 7, booleans and alpha to coverage are 0 or 1, the filtering type of each sampler fits its anisotropy and the unknown numbers have their usual values. SkelData: names are present and valid UTF-8, each bone has its position as index, a parent index of at least -1 and a first flag of 1, there is one transform for each bone, the world transforms are what calculate_world_transform gives, and the two lists of inverses are the inverses of the two lists of matrices. Other files are changed without any error.", "quantifier": "all files that can be opened and saved again (hlpb: with fewer than 2^32 constraints of each kind), all matrix arithmetic", "why_tests_cant": "It is an exact condition on every file; a test shows for single files that they are not changed.", "anchors": ["ssbh_data/src/modl_data.rs:60-132", "ssbh_data/src/hlpb_data.rs:68-212", "ssbh_data/src/matl_data.rs:459-598", "ssbh_data/src/skel_data.rs:151-226"]}
