"""Writes MANIFEST.json. CLAIMS lists (property, status, theorems, note)."""
import json, os
HERE = os.path.dirname(os.path.abspath(__file__))
P = "Verif.Props."
CLAIMS = [
    ("C01", "proved", ["C01_ssbh_round_trip", "C01_format_round_trip", "C01_write_total"],
     "All ten SSBH formats. write fails only on offsets above 64 bits."),
    ("C02", "proved", ["C02_rewrite_fixed_point"], ""),
    ("C03", "proved", ["C03_trailing_bytes", "C03_only_written_bytes"], ""),
    ("C04", "proved", ["C04_no_overlap"], ""),
    ("C05", "proved", ["C05_offsets", "C07_nonnull_written", "C07_array_written"], ""),
    ("C06", "proved", ["C06_padding_zero", "C69_image"], ""),
    ("C07", "proved", ["C07_null_written", "C07_nonnull_written", "C07_array_written", "C07_buffer_written", "C07_enum_written", "C07_null_read"], ""),
    ("C08", "proved", ["C08_read_checks", "C08_foreign_rejected", "C08_wrong_type", "C08_enum_tags", "C08_param_tags"], ""),
    ("C09", "proved", ["C09_version_written", "C09_version_read"], ""),
    ("C10", "proved", ["C10_pointer", "C10_overflow"], ""),
    ("C11", "proved", ["C11_byte_buffer"], ""),
    ("C12", "proved", ["C12_array", "C12_array_fits", "C12_array_fits_formats"], ""),
    ("C13", "proved", ["C13_from_bytes", "C13_string_written", "C13_string_read"], ""),
    ("C14", "proved", ["C14_pointer_exact", "C14_pointer_too_large"], ""),
    ("C15", "proved", ["C15_meshex_counts", "C15_meshex_file"], ""),
    ("C16", "proved", ["C16_mesh_padding", "C16_anim_padding"], ""),
    ("C17", "proved", ["C17_adj_written", "C17_adj_round_trip"], ""),
    ("C18", "proved", ["C18_identity", "C18_ranges"], ""),
    ("C19", "proved", ["C19_adjacency", "C19_panics_iff"], ""),
    ("C20", "proved", ["C20_round_trip", "C20_read_exact", "C20_past_end", "C20_write_frame"], ""),
    ("C21", "proved", ["C21_exact_bits", "C21_write_total"], "Float arithmetic is a parameter; the result holds for any."),
    ("C22", "proved", ["C22_boolean_lossless"], ""),
    ("C23", "partial", ["C23_pattern_lossless_partial", "C23_pattern_lossy"],
     "False as stated: 24 bits are stored per value. Lossless exactly when the values span less than 2^24; witness of loss."),
    ("C24", "partial", ["C24_frame_count_partial", "C24_constant_loses_frames"],
     "False as stated: a track that needs 0 bits per frame is read back with one frame. Exact characterization and witness."),
    ("C25", "proved", ["C25_exact_error", "C25_exact_again"], ""),
    ("C26", "proved", ["C26_uncompressed_round_trip"], ""),
    ("C27", "partial", ["C27_ranges_partial", "C27_disjoint_partial", "C27_ranges_modulo", "C27_offsets_wrap", "C27_bad_range_rejected", "C27_bad_range_error"],
     "False as stated for 4 GiB of track data: offsets wrap (witness). Proved below 4 GiB, and modulo 2^32 in general. Reading: proved in full."),
    ("C28", "proved", ["C28_structure_preserved", "C28_names"],
     "For track data below 4 GiB and fewer than 2^32 frames per track; names up to the first null character."),
    ("C29", "proved", ["C29_outcome", "C29_beyond_limit"], "With the float model. Witness that the limit of 2^24 frames is needed."),
    ("C30", "partial", ["C30_sizes_partial", "C30_boolean_grows"],
     "False as stated for boolean tracks (witness). Exact sizes of both encodings for every type."),
    ("C31", "proved", ["C31_round_trip", "C31_identity", "C31_references", "C31_each_once"], ""),
    ("C32", "proved", ["C32_round_trip", "C32_identity", "C32_nul_cut"], ""),
    ("C33", "proved", ["C33_round_trip", "C33_identity", "C33_entries"], "Bounding sphere computation is a parameter."),
    ("C34", "partial", ["C34_prefix", "C34_no_tags", "C34_unchanged", "C34_cut_at_tag", "C34_cut_shape", "C34_idempotent_partial", "C34_not_idempotent"],
     "Not idempotent (witness); idempotent unless the first result ends in Shape. Everything else is proved. Places are counted in characters."),
    ("C35", "partial", ["C35_succeeds_iff", "C35_failure", "C35_round_trip", "C35_identity_partial", "C35_large_parent", "C35_file_arrays"],
     "False as stated: parents of 32768 and above are lost or replaced (witness). Exact result for all parents; identity below 32768."),
    ("C36", "proved", ["C36_terminates", "C36_cycle_iff", "C36_cycle_index", "C36_product", "C36_ancestors_unique"],
     "Matrix product is a parameter."),
    ("C37", "partial", ["C37_iff", "C37_other_order_partial", "C37_fails"],
     "False as stated, in exact arithmetic: holds exactly if the matrices commute (witness of failure). Proved for the other order of multiplication."),
    ("C38", "proved", ["C38_round_trip", "C38_identity", "C38_other_versions"], ""),
    ("C39", "proved", ["C39_attributes", "C39_shape"],
     "Buffers below 4 GiB. The conversions to half floats and bytes are parameters. 1.8 does not store binormals and names."),
    ("C40", "proved", ["C40_created_iff", "C40_object", "C40_in_range"], "Bounding volumes are a parameter."),
    ("C41", "proved", ["C41_round_trip", "C41_width"], "Buffers below 4 GiB."),
    ("C42", "proved", ["C42_round_trip", "C42_shared", "C42_duplicates", "C42_index_limit", "C42_nul_fails"],
     "Witness that names with a null character share influences."),
    ("C43", "proved", ["C43_max", "C43_stored", "C43_wraps"], "The stored flag has 8 bits (witness that it wraps)."),
    ("C44", "proved", ["C44_shape", "C44_values"], "Matrix arithmetic is a parameter."),
    ("C45", "proved", ["C45_modl", "C45_hlpb", "C45_matl", "C45_skel", "C45_meshex", "C45_adj", "C45_anim_file", "C45_mesh"],
     "With the limits of C18, C28 and C33 for 32 bit counts; Anim and Mesh files below 4 GiB."),
    ("C46", "proved", ["C46_groups", "C46_entries"], "Bounding sphere computation is a parameter."),
    ("C47", "proved", ["C47_modl", "C47_hlpb", "C47_matl", "C47_skel", "C47_meshex", "C47_adj"], ""),
    ("C48", "proved", ["C48_round_trip", "C48_nul_free"], "Buffers below 4 GiB. Component conversions and bounding volumes are parameters."),
    ("C49", "proved", ["C49_sorted"], ""),
    ("C50", "proved", ["C50_mesh_files", "C50_meshes", "C50_saves_again", "C50_binormals_only"],
     "With the float model. Files below 4 GiB, distinct names and subindices. Witness for the stated exception."),
    ("C51", "proved", ["C51_ssbh", "C51_meshex", "C51_adj"], ""),
    ("C52", "proved", ["C52_track", "C52_animation", "C52_huge_range"],
     "With the float model. Track data below 4 GiB. Witness that the limit of the range is needed."),
    ("C53", "partial", ["C53_second_save_partial", "C53_drift"],
     "False as stated for compressed floats (witness). Proved for files whose tracks are boolean, pattern indices, or stored without compression."),
    ("C54", "proved", ["C54_vertex_precision", "C54_half_overflow"], "With the float model. Witness that the limit for half floats is needed."),
    ("C55", "proved", ["C55_track", "C55_animation", "C55_not_unit"], "With the float model. Witness that rotations of another length are not kept."),
    ("C56", "proved", ["C56_modl", "C56_modl_saved", "C56_hlpb", "C56_hlpb_saved", "C56_matl", "C56_matl_saved", "C56_skel", "C56_skel_saved", "C56_meshex"], "Against a field by field relation between data types and format types."),
    ("C57", "proved", ["C57_layout", "C57_saved", "C57_half", "C57_byte"], "Equivalence of reading with a direct description of the layout. C57_saved for files below 4 GiB and different objects."),
    ("C58", "proved", ["C58_layout", "C58_saved"], "Versions 2.0 and 2.1. Equivalence of reading with a direct description of the layout, for every meaning of the float operations. C58_saved for files below 4 GiB."),
    ("C59", "proved", ["C59_layout", "C59_code", "C59_file", "C59_panics", "C59_names"], "Equivalence of reading with a direct description of the layout. Names that are not UTF-8 are a parameter."),
    ("C60", "proved", ["C60_groups", "C60_panics", "C60_not_saved", "C60_debug_panics"], "Hash map order and overflow checks are parameters. Witness for the difference between debug and release builds."),
    ("C61", "proved", ["C61_fields", "C61_file", "C61_disjoint"], "Bounds are an arbitrary function of the points. Vertex counts of 2^32 and more cannot occur with buffers below 4 GiB."),
    ("C62", "proved", ["C62_round_trip", "C62_success", "C62_fits", "C62_write_total", "C62_keeps_before", "C62_keeps_after", "C62_append", "C62_many", "C62_position", "C62_in_a_row", "C62_misaligned", "C62_cut", "C62_embed"], "The stream is a Cursor<Vec<u8>> with any content and position."),
    ("C63", "proved", ["C63_round_trip", "C63_exact", "C63_same_json", "C63_stable", "C63_injective", "C63_order", "C63_written", "C63_convert", "C63_hex", "C63_nul", "C63_accepted", "C63_adj", "C63_nan", "C63_changed"], "JSON values; for their text see C103. With witnesses for what is lost."),
    ("C64", "proved", ["C64_round_trip", "C64_injective", "C64_order", "C64_accepted", "C64_shdr", "C64_written", "C64_shown", "C64_convert", "C64_same_data", "C64_unknown", "C64_sampler", "C64_blend_state", "C64_uv_transforms", "C64_anisotropy", "C64_nan"], "JSON values; for their text see C103. For Mesh and Anim files the bytes are those of opening and saving (C50, C53)."),
    ("C65", "proved", ["C65_read", "C65_read_type", "C65_unique", "C65_rejects", "C65_written", "C65_modl", "C65_meshex", "C65_meshex_written", "C65_adj", "C65_adj_written"], "All ten formats with all their versions, MeshEx and Adj."),
    ("C66", "proved", ["C66_modl", "C66_hlpb", "C66_matl", "C66_skel", "C66_meshex", "C66_anim"], "Matrix product and inverse and the sphere around spheres are arbitrary functions. Hlpb and MeshEx: fewer than 2^32 constraints, groups and flags. Meshes are in C61."),
    ("C67", "proved", ["C67_read", "C67_rejects", "C67_mesh_object", "C67_no_positions", "C67_panics", "C67_seams", "C67_nan", "C67_own", "C67_exact", "C67_unused"], "Only the first list of positions counts, as in the code."),
    ("C68", "proved", ["C68_panics", "C68_saved", "C68_write", "C68_sign_missing", "C68_overflow"], "Version 1.2 is in C60. Saved: fewer than 2^32 bytes and frames, as in C45."),
    ("C69", "proved", ["C69_image", "C69_success", "C69_small", "C69_format", "C69_next", "C69_identical", "C69_rule3_false", "C69_meshex", "C69_meshex_success", "C69_adj"], "The description is in Image/Spec.lean, Image/Formats.lean, Image/MeshEx.lean and Image/Adj.lean and does not use the writer."),
    ("C70", "proved", ["C70_image", "C70_success", "C70_size", "C70_aligned", "C70_elements", "C70_align_after", "C70_repr_padding", "C70_magic"], "Ty.ok are the conditions; the last four theorems show what happens without them."),
    ("C71", "partial", ["C71_derived", "C71_formats_partial", "C71_words_partial", "C71_materials_partial", "C71_models", "C71_materials16", "C71_passes", "C71_materials15"], "Missing: models, materials and render passes on 32 bit platforms, where it is false (the last four theorems)."),
    ("C72", "proved", ["C72_read_back", "C72_success", "C72_resave"], ""),
    ("C73", "proved", ["C73_lib", "C73_data", "C73_shdr", "C73_file", "C73_lib_stable", "C73_data_stable", "C73_numbers", "C73_too_large",
        "C73_misspelled"], "Texts with the character U+0000 are outside, see C63_nul."),
    ("C74", "proved", ["C74_extension_of", "C74_with_extension", "C74_save", "C74_saved", "C74_failed", "C74_save_as", "C74_meshex_emptied",
        "C74_data_save", "C74_data_failed", "C74_extension", "C74_lib_show", "C74_lib_back", "C74_lib_frame", "C74_data_show",
        "C74_data_back", "C74_data_frame", "C74_data_unknown", "C74_lib_round_trip", "C74_data_round_trip"],
        "The disk is a map from paths to contents, see DESIGN.md."),
    ("C75", "partial", ["C75_lib_opens", "C75_lib_names_partial", "C75_nufx", "C75_nufx_test", "C75_data_names", "C75_data_opens_partial",
        "C75_nusrcmdlb", "C75_test_partial", "C75_test_missing"],
        "False as stated: ssbh_lib_json names Nufx files nuflxb instead of nufxlb, ssbh_data_json ignores nusrcmdlb, ssbh_test ignores nulstb and nusrcmdlb."),
    ("C76", "proved", ["C76_silent", "C76_laid_out", "C76_stops", "C76_adj", "C76_adj_report", "C76_meshex", "C76_panics"], ""),
    ("C77", "proved", ["C77_same_data", "C77_finite", "C77_same_file", "C77_hidden"], ""),
    ("C78", "partial", ["C78_saved_partial", "C78_rejected", "C78_ignored", "C78_not_kept", "C78_old_entry", "C78_old_entry_same", "C78_old_entry_lost", "C78_old_not_saved", "C78_upgrade"],
        "False as stated: SkelData, ModlData and HlpbData are saved with the only version of the format, whatever their version fields say."),
    ("C79", "proved", ["C79_enums", "C79_constants"], ""),
    ("C80", "proved", ["C80_anim", "C80_mesh", "C80_ssbh", "C80_meshex", "C80_adj"], "Animations of version 1.2 have no values."),
    ("C81", "proved", ["C81_modl", "C81_hlpb", "C81_matl", "C81_skel", "C81_meshex", "C81_adj", "C81_anim", "C81_mesh", "C81_anim_changes", "C81_skel_large_parent", "C81_mesh_binormals_only"], "The last three show that the conditions are needed."),
    ("C82", "proved", ["C82_mesh", "C82_other_format"], "The second theorem shows that the condition on the formats is needed."),
    ("C83", "proved", ["C83_vector3", "C83_vector4", "C83_matrix3x3", "C83_matrix4x4", "C83_cols", "C83_min3", "C83_min4", "C83_identity"], "Which one of two zeros of different sign min and max give is left open by Rust; the model takes the first one, the statement allows both."),
    ("C84", "proved", ["C84_drift", "C84_again"], "With the float model. The values do drift, see C53. The last component of rotations is not a stored component, see C55."),
    ("C85", "proved", ["C85_boxes", "C85_file", "C85_rounding", "C85_overflow"], "With the float model. That the geometry_tools crate finds the smallest and largest coordinates is a hypothesis (FindsBox, met by a fold of min and max); the bounding sphere is arbitrary, see C91."),
    ("C86", "proved", ["C86_shrinks", "C86_forever", "C86_grows"], "With the float model. All numbers of saves, with a size condition on the first file only."),
    ("C87", "partial", ["C87_accepted", "C87_options", "C87_same", "C87_merge", "C87_others", "C87_formats", "C87_effective_partial", "C87_silent", "C87_repr_lost", "C87_inner"], "What is accepted and which value each option gets are proved for all attributes. That everything written has an effect is false, with witnesses."),
    ("C88", "proved", ["C88_outcome", "C88_saved", "C88_exact", "C88_again", "C88_not_saved"], "With the float model. Files of version 1.2 are never saved, see C60."),
    ("C89", "proved", ["C89_bound", "C89_shared", "C89_saved", "C89_data_saved", "C89_grows"], "For animations; the other formats read and write their arrays in the same way."),
    ("C90", "proved", ["C90_exact", "C90_type", "C90_accepted", "C90_data", "C90_data_same", "C90_data_accepted", "C90_mesh_data", "C90_shdr_data"], "32 bits change `read_buffer` and the range of a track; bit positions in tracks above 64 MiB, allocation failures and writing are not modelled for 32 bits."),
    ("C91", "proved", ["C91_mesh", "C91_meshex"], "That the geometry_tools crate computes spheres which contain the given points and spheres, up to a given error, is a hypothesis (FindsSphere, FindsSphereOfSpheres, met by largeGeometry)."),
    ("C92", "proved", ["C92_more", "C92_more_meshex", "C92_more_data", "C92_saved", "C92_saved_meshex", "C92_saved_data", "C92_adj"], "Opening ShdrData of a cut file is covered by C92_more_data and C92_saved; ShdrData can not be saved."),
    ("C93", "proved", ["C93_derived", "C93_small", "C93_meshEx", "C93_adj", "C93_materials", "C93_vector", "C93_texture", "C93_mesh", "C93_vertex", "C93_uv",
        "C93_sort", "C93_model", "C93_assign", "C93_helpers", "C93_skeleton", "C93_move", "C93_meshExData", "C93_flags", "C93_adjData", "C93_anim", "C93_track", "C93_frames", "C93_visibility"], "For skeletons the operations on matrices are any functions."),
    ("C94", "proved", ["C94_meshex_round_trip", "C94_meshex_length", "C94_meshex_own_length", "C94_meshex_keeps", "C94_meshex_start_lost", "C94_many",
        "C94_first_lost", "C94_meshex_cut", "C94_adj_written", "C94_adj_read", "C94_adj_exact", "C94_adj_two"], "The stream is a Cursor<Vec<u8>> with any content and position."),
    ("C95", "proved", ["C95_room", "C95_errors", "C95_slice", "C95_slice_odd", "C95_slice_written", "C95_zeros", "C95_exact", "C95_meshex_room", "C95_meshex_slice",
        "C95_adj_room", "C95_adj_slice"], "Writing to a limited stream is writing without the limit up to the first write that ends after it."),
    ("C96", "proved", ["C96_modl", "C96_hlpb", "C96_matl", "C96_skel", "C96_anim", "C96_mesh", "C96_meshex", "C96_adj", "C96_adj_two"], "Keeps is what the first six theorems say about each type. Float conversions, bounding volumes and matrix operations are arbitrary functions."),
    ("C97", "proved", ["C97_glam", "C97_glam_vector", "C97_world", "C97_saved", "C97_whole", "C97_identity", "C97_points", "C97_vectors", "C97_rounding", "C97_overflow"], "The products of the crate glam are any functions with a small error (AccurateProduct, AccurateVector), or IEEE 754 arithmetic in the order of glam, which has it (C97_glam). C97_whole and C97_identity are about the latter. Inverses are not covered."),
    ("C98", "proved", ["C98_others", "C98_content", "C98_grows", "C98_value", "C98_types", "C98_data_types", "C98_ssbh", "C98_meshex", "C98_data", "C98_ends", "C98_disk", "C98_adj", "C98_lost"], "What a call of the operating system wrote is taken to be in the file and not to be lost any more, so loss of power is not covered. C98_types and C98_data_types say for which types C98_value holds."),
    ("C99", "proved", ["C99_open_still", "C99_open_ends", "C99_open_missing", "C99_open", "C99_open_after", "C99_open_after_value", "C99_whole", "C99_whole_saved", "C99_bytes", "C99_same", "C99_open_mixture", "C99_save_mixture"], "Calls of the operating system are atomic. The programs only save and open: no file is removed or renamed. C98_types says for which types FromStart holds."),
    ("C100", "proved", ["C100_ssbh", "C100_format", "C100_meshex", "C100_adj", "C100_modl", "C100_hlpb", "C100_matl", "C100_skel", "C100_meshex_data",
        "C100_adj_data", "C100_mesh", "C100_anim", "C100_values", "C100_rounded"], "C100_rounded shows that compressed tracks are an exception. C100_mesh and C100_rounded with the float model."),
    ("C101", "proved", ["C101_modl", "C101_hlpb", "C101_matl", "C101_skel", "C101_anim", "C101_mesh", "C101_meshex", "C101_adj", "C101_adj_slice"], "Limited is what the first six theorems say about each type. Float conversions, bounding volumes and matrix operations are arbitrary functions. What is in the memory after a failure is not stated."),
    ("C102", "proved", ["C102_decimal", "C102_read_back", "C102_different", "C102_shortest", "C102_trailing_zero", "C102_overflow"], "Printer and parser of serde_json are modelled from their published source. Which decimal is printed is a parameter; the one with the largest exponent is shown to be possible."),
    ("C103", "proved", ["C103_value", "C103_different", "C103_around", "C103_characters", "C103_lib", "C103_data", "C103_sized", "C103_lib_program", "C103_data_program"], "Printer and parser of serde_json are modelled from their published source. The parser makes a value, which gets its type afterwards."),
    ("C104", "proved", ["C104_extended", "C104_prefix", "C104_number", "C104_bytes", "C104_lib", "C104_data", "C104_stopped", "C104_data_stopped"], "The steps of writing are those of C98: what a call of the operating system wrote is not lost any more."),
    ("C105", "proved", ["C105_grammar", "C105_rejected", "C105_unambiguous", "C105_integer", "C105_real", "C105_lib", "C105_data"], "The grammar is a specification of its own. The values of floats are those of C102; how exact they are is C106. The parser makes a value, which gets its type afterwards: in entries that no type has, the crate also accepts deeper nesting, larger numbers and lone surrogates."),
    ("C106", "proved", ["C106_near", "C106_exact", "C106_error", "C106_zero", "C106_large", "C106_integer", "C106_not_nearest"], "The number of a text is a specification of its own (`Json/NumberSpec.lean`). The float reader is a model of the published source of serde_json, which is not part of the repository."),
    ("C107", "proved", ["C107_edit", "C107_parts", "C107_elements", "C107_lib", "C107_data"], "Parts and replacement are a specification of their own (`J.get` and `J.put` in `Json/Edit.lean`). An element whose JSON is nested deeper than 125 is outside of `C107_elements`. The reader of JSON text is a model of the published source of serde_json, as for C105."),
    ("C108", "proved", ["C108_program", "C108_skeleton", "C108_model", "C108_material", "C108_aim", "C108_orient", "C108_meshex", "C108_mesh"], "`C107_elements` gives the first hypothesis of `C108_program` for every list. What opening a saved animation or adjacency file gives is C45."),
    ("C109", "proved", ["C109_lib", "C109_data", "C109_lib_file", "C109_data_file", "C109_lib_text", "C109_data_text", "C109_model", "C109_materials"], "Which shape a part has is a specification of its own (`Shape.part` in `Json/ShapeEdit.lean`, on the shapes of C73). `C109_model` and `C109_materials` are the exceptions."),
    ("C110", "proved", ["C110_program", "C110_data"], "What JSON does not show of a file (names that are not UTF-8, see C63) may be lost. What opening the saved data gives is C45 and C108. For the eight data types a value that is not accepted is not described in models and materials, see `C109_model`."),
    ("C111", "proved", ["C111_track", "C111_track_bytes", "C111_opens", "C111_object", "C111_bone", "C111_bone_file", "C111_bone_edit", "C111_bone_added"], "Float operations, bounding volumes and matrix operations are parameters. Opening is that of C45 for saved files. `IsAncestor` follows parent indices."),
    ("C112", "proved", ["C112_object", "C112_opens"], "`MovedObject` says that two objects have the same fields but the offsets, that the data of the first one, up to the end of its buffers, is also where the data of the second one starts, and that they have the same weights. To compare two objects with different data behind them take a mesh whose buffers end with the data as the first one for both."),
    ("C113", "proved", ["C113_number", "C113_hlpb", "C113_matl", "C113_skel", "C113_meshex", "C113_anim", "C113_lawful", "C113_reopened_hlpb", "C113_reopened_matl", "C113_reopened_skel", "C113_reopened_meshex", "C113_equal_not_same"], "The derived comparisons are modelled field by field; `plus` and `nanFree` say for every type what the signs of zeros and NaNs in it are. `ModlData` and `AdjData` contain no floats, their == is equality; `MeshData` has no ==."),
    ("C114", "proved", ["C114_modl", "C114_hlpb", "C114_matl", "C114_skel", "C114_meshex", "C114_anim"], "The conditions are necessary and sufficient. AdjData is C45_adj, longer tracks are C28 and C52."),
    ("C115", "proved", ["C115_world", "C115_file", "C115_cycle", "C115_order", "C115_merged", "C115_merged_file"], "`Moves` and `MovesAll` say that bones are in another skeleton with new indices. That a missing parent in the first of two skeletons matters is an example in the same file."),
    ("C116", "proved", ["C116_file", "C116_entry", "C116_lost", "C116_order"], "`KeptAttributes` is the specification; the types are numbered as in the file. A material with all of these cases is an example in the same file."),
    ("C117", "proved", ["C117_modl", "C117_hlpb", "C117_matl", "C117_skel"], "Each is an equivalence. Contents means what the format types read; the layout of the bytes is not compared. Files that meet the conditions and files that do not are examples in the same file."),
]

def main():
    claims = [{"property": p, "status": s, "theorems": [P + t for t in ts], "note": n} for p, s, ts, n in CLAIMS]
    with open(os.path.join(HERE, "..", "MANIFEST.json"), "w") as f:
        json.dump({"claims": claims}, f, indent=1)
        f.write("\n")
    # prints the axioms of all theorems of the manifest
    with open(os.path.join(HERE, "../lean/Verif/Axioms.lean"), "w") as f:
        mods = sorted(n[:-5] for n in os.listdir(os.path.join(HERE, "../lean/Verif/Props")) if n.endswith(".lean"))
        f.writelines(f"import Verif.Props.{m}\n" for m in mods)
        f.write("/-!\n# Axioms\n\nPrints the axioms of every theorem of the manifest. Written by tools/manifest.py.\n-/\n\n")
        for n in dict.fromkeys(n for c in claims for n in c["theorems"]):
            f.write(f"#print axioms {n}\n")

main()
