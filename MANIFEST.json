{
 "claims": [
  {
   "property": "C01",
   "status": "proved",
   "theorems": [
    "Verif.Props.C01_ssbh_round_trip",
    "Verif.Props.C01_format_round_trip",
    "Verif.Props.C01_write_total"
   ],
   "note": "All ten SSBH formats. write fails only on offsets above 64 bits."
  },
  {
   "property": "C02",
   "status": "proved",
   "theorems": [
    "Verif.Props.C02_rewrite_fixed_point"
   ],
   "note": ""
  },
  {
   "property": "C03",
   "status": "proved",
   "theorems": [
    "Verif.Props.C03_trailing_bytes",
    "Verif.Props.C03_only_written_bytes"
   ],
   "note": ""
  },
  {
   "property": "C04",
   "status": "proved",
   "theorems": [
    "Verif.Props.C04_no_overlap"
   ],
   "note": ""
  },
  {
   "property": "C05",
   "status": "proved",
   "theorems": [
    "Verif.Props.C05_offsets",
    "Verif.Props.C07_nonnull_written",
    "Verif.Props.C07_array_written"
   ],
   "note": ""
  },
  {
   "property": "C06",
   "status": "proved",
   "theorems": [
    "Verif.Props.C06_padding_zero",
    "Verif.Props.C69_image"
   ],
   "note": ""
  },
  {
   "property": "C07",
   "status": "proved",
   "theorems": [
    "Verif.Props.C07_null_written",
    "Verif.Props.C07_nonnull_written",
    "Verif.Props.C07_array_written",
    "Verif.Props.C07_buffer_written",
    "Verif.Props.C07_enum_written",
    "Verif.Props.C07_null_read"
   ],
   "note": ""
  },
  {
   "property": "C08",
   "status": "proved",
   "theorems": [
    "Verif.Props.C08_read_checks",
    "Verif.Props.C08_foreign_rejected",
    "Verif.Props.C08_wrong_type",
    "Verif.Props.C08_enum_tags",
    "Verif.Props.C08_param_tags"
   ],
   "note": ""
  },
  {
   "property": "C09",
   "status": "proved",
   "theorems": [
    "Verif.Props.C09_version_written",
    "Verif.Props.C09_version_read"
   ],
   "note": ""
  },
  {
   "property": "C10",
   "status": "proved",
   "theorems": [
    "Verif.Props.C10_pointer",
    "Verif.Props.C10_overflow"
   ],
   "note": ""
  },
  {
   "property": "C11",
   "status": "proved",
   "theorems": [
    "Verif.Props.C11_byte_buffer"
   ],
   "note": ""
  },
  {
   "property": "C12",
   "status": "proved",
   "theorems": [
    "Verif.Props.C12_array",
    "Verif.Props.C12_array_fits",
    "Verif.Props.C12_array_fits_formats"
   ],
   "note": ""
  },
  {
   "property": "C13",
   "status": "proved",
   "theorems": [
    "Verif.Props.C13_from_bytes",
    "Verif.Props.C13_string_written",
    "Verif.Props.C13_string_read"
   ],
   "note": ""
  },
  {
   "property": "C14",
   "status": "proved",
   "theorems": [
    "Verif.Props.C14_pointer_exact",
    "Verif.Props.C14_pointer_too_large"
   ],
   "note": ""
  },
  {
   "property": "C15",
   "status": "proved",
   "theorems": [
    "Verif.Props.C15_meshex_counts",
    "Verif.Props.C15_meshex_file"
   ],
   "note": ""
  },
  {
   "property": "C16",
   "status": "proved",
   "theorems": [
    "Verif.Props.C16_mesh_padding",
    "Verif.Props.C16_anim_padding"
   ],
   "note": ""
  },
  {
   "property": "C17",
   "status": "proved",
   "theorems": [
    "Verif.Props.C17_adj_written",
    "Verif.Props.C17_adj_round_trip"
   ],
   "note": ""
  },
  {
   "property": "C18",
   "status": "proved",
   "theorems": [
    "Verif.Props.C18_identity",
    "Verif.Props.C18_ranges"
   ],
   "note": ""
  },
  {
   "property": "C19",
   "status": "proved",
   "theorems": [
    "Verif.Props.C19_adjacency",
    "Verif.Props.C19_panics_iff"
   ],
   "note": ""
  },
  {
   "property": "C20",
   "status": "proved",
   "theorems": [
    "Verif.Props.C20_round_trip",
    "Verif.Props.C20_read_exact",
    "Verif.Props.C20_past_end",
    "Verif.Props.C20_write_frame"
   ],
   "note": ""
  },
  {
   "property": "C21",
   "status": "proved",
   "theorems": [
    "Verif.Props.C21_exact_bits",
    "Verif.Props.C21_write_total"
   ],
   "note": "Float arithmetic is a parameter; the result holds for any."
  },
  {
   "property": "C22",
   "status": "proved",
   "theorems": [
    "Verif.Props.C22_boolean_lossless"
   ],
   "note": ""
  },
  {
   "property": "C23",
   "status": "partial",
   "theorems": [
    "Verif.Props.C23_pattern_lossless_partial",
    "Verif.Props.C23_pattern_lossy"
   ],
   "note": "False as stated: 24 bits are stored per value. Lossless exactly when the values span less than 2^24; witness of loss."
  },
  {
   "property": "C24",
   "status": "partial",
   "theorems": [
    "Verif.Props.C24_frame_count_partial",
    "Verif.Props.C24_constant_loses_frames"
   ],
   "note": "False as stated: a track that needs 0 bits per frame is read back with one frame. Exact characterization and witness."
  },
  {
   "property": "C25",
   "status": "proved",
   "theorems": [
    "Verif.Props.C25_exact_error",
    "Verif.Props.C25_exact_again"
   ],
   "note": ""
  },
  {
   "property": "C26",
   "status": "proved",
   "theorems": [
    "Verif.Props.C26_uncompressed_round_trip"
   ],
   "note": ""
  },
  {
   "property": "C27",
   "status": "partial",
   "theorems": [
    "Verif.Props.C27_ranges_partial",
    "Verif.Props.C27_disjoint_partial",
    "Verif.Props.C27_ranges_modulo",
    "Verif.Props.C27_offsets_wrap",
    "Verif.Props.C27_bad_range_rejected",
    "Verif.Props.C27_bad_range_error"
   ],
   "note": "False as stated for 4 GiB of track data: offsets wrap (witness). Proved below 4 GiB, and modulo 2^32 in general. Reading: proved in full."
  },
  {
   "property": "C28",
   "status": "proved",
   "theorems": [
    "Verif.Props.C28_structure_preserved",
    "Verif.Props.C28_names"
   ],
   "note": "For track data below 4 GiB and fewer than 2^32 frames per track; names up to the first null character."
  },
  {
   "property": "C29",
   "status": "proved",
   "theorems": [
    "Verif.Props.C29_outcome",
    "Verif.Props.C29_beyond_limit"
   ],
   "note": "With the float model. Witness that the limit of 2^24 frames is needed."
  },
  {
   "property": "C30",
   "status": "partial",
   "theorems": [
    "Verif.Props.C30_sizes_partial",
    "Verif.Props.C30_boolean_grows"
   ],
   "note": "False as stated for boolean tracks (witness). Exact sizes of both encodings for every type."
  },
  {
   "property": "C31",
   "status": "proved",
   "theorems": [
    "Verif.Props.C31_round_trip",
    "Verif.Props.C31_identity",
    "Verif.Props.C31_references",
    "Verif.Props.C31_each_once"
   ],
   "note": ""
  },
  {
   "property": "C32",
   "status": "proved",
   "theorems": [
    "Verif.Props.C32_round_trip",
    "Verif.Props.C32_identity",
    "Verif.Props.C32_nul_cut"
   ],
   "note": ""
  },
  {
   "property": "C33",
   "status": "proved",
   "theorems": [
    "Verif.Props.C33_round_trip",
    "Verif.Props.C33_identity",
    "Verif.Props.C33_entries"
   ],
   "note": "Bounding sphere computation is a parameter."
  },
  {
   "property": "C34",
   "status": "partial",
   "theorems": [
    "Verif.Props.C34_prefix",
    "Verif.Props.C34_no_tags",
    "Verif.Props.C34_unchanged",
    "Verif.Props.C34_cut_at_tag",
    "Verif.Props.C34_cut_shape",
    "Verif.Props.C34_idempotent_partial",
    "Verif.Props.C34_not_idempotent"
   ],
   "note": "Not idempotent (witness); idempotent unless the first result ends in Shape. Everything else is proved. Places are counted in characters."
  },
  {
   "property": "C35",
   "status": "partial",
   "theorems": [
    "Verif.Props.C35_succeeds_iff",
    "Verif.Props.C35_failure",
    "Verif.Props.C35_round_trip",
    "Verif.Props.C35_identity_partial",
    "Verif.Props.C35_large_parent",
    "Verif.Props.C35_file_arrays"
   ],
   "note": "False as stated: parents of 32768 and above are lost or replaced (witness). Exact result for all parents; identity below 32768."
  },
  {
   "property": "C36",
   "status": "proved",
   "theorems": [
    "Verif.Props.C36_terminates",
    "Verif.Props.C36_cycle_iff",
    "Verif.Props.C36_cycle_index",
    "Verif.Props.C36_product",
    "Verif.Props.C36_ancestors_unique"
   ],
   "note": "Matrix product is a parameter."
  },
  {
   "property": "C37",
   "status": "partial",
   "theorems": [
    "Verif.Props.C37_iff",
    "Verif.Props.C37_other_order_partial",
    "Verif.Props.C37_fails"
   ],
   "note": "False as stated, in exact arithmetic: holds exactly if the matrices commute (witness of failure). Proved for the other order of multiplication."
  },
  {
   "property": "C38",
   "status": "proved",
   "theorems": [
    "Verif.Props.C38_round_trip",
    "Verif.Props.C38_identity",
    "Verif.Props.C38_other_versions"
   ],
   "note": ""
  },
  {
   "property": "C39",
   "status": "proved",
   "theorems": [
    "Verif.Props.C39_attributes",
    "Verif.Props.C39_shape"
   ],
   "note": "Buffers below 4 GiB. The conversions to half floats and bytes are parameters. 1.8 does not store binormals and names."
  },
  {
   "property": "C40",
   "status": "proved",
   "theorems": [
    "Verif.Props.C40_created_iff",
    "Verif.Props.C40_object",
    "Verif.Props.C40_in_range"
   ],
   "note": "Bounding volumes are a parameter."
  },
  {
   "property": "C41",
   "status": "proved",
   "theorems": [
    "Verif.Props.C41_round_trip",
    "Verif.Props.C41_width"
   ],
   "note": "Buffers below 4 GiB."
  },
  {
   "property": "C42",
   "status": "proved",
   "theorems": [
    "Verif.Props.C42_round_trip",
    "Verif.Props.C42_shared",
    "Verif.Props.C42_duplicates",
    "Verif.Props.C42_index_limit",
    "Verif.Props.C42_nul_fails"
   ],
   "note": "Witness that names with a null character share influences."
  },
  {
   "property": "C43",
   "status": "proved",
   "theorems": [
    "Verif.Props.C43_max",
    "Verif.Props.C43_stored",
    "Verif.Props.C43_wraps"
   ],
   "note": "The stored flag has 8 bits (witness that it wraps)."
  },
  {
   "property": "C44",
   "status": "proved",
   "theorems": [
    "Verif.Props.C44_shape",
    "Verif.Props.C44_values"
   ],
   "note": "Matrix arithmetic is a parameter."
  },
  {
   "property": "C45",
   "status": "proved",
   "theorems": [
    "Verif.Props.C45_modl",
    "Verif.Props.C45_hlpb",
    "Verif.Props.C45_matl",
    "Verif.Props.C45_skel",
    "Verif.Props.C45_meshex",
    "Verif.Props.C45_adj",
    "Verif.Props.C45_anim_file",
    "Verif.Props.C45_mesh"
   ],
   "note": "With the limits of C18, C28 and C33 for 32 bit counts; Anim and Mesh files below 4 GiB."
  },
  {
   "property": "C46",
   "status": "proved",
   "theorems": [
    "Verif.Props.C46_groups",
    "Verif.Props.C46_entries"
   ],
   "note": "Bounding sphere computation is a parameter."
  },
  {
   "property": "C47",
   "status": "proved",
   "theorems": [
    "Verif.Props.C47_modl",
    "Verif.Props.C47_hlpb",
    "Verif.Props.C47_matl",
    "Verif.Props.C47_skel",
    "Verif.Props.C47_meshex",
    "Verif.Props.C47_adj"
   ],
   "note": ""
  },
  {
   "property": "C48",
   "status": "proved",
   "theorems": [
    "Verif.Props.C48_round_trip",
    "Verif.Props.C48_nul_free"
   ],
   "note": "Buffers below 4 GiB. Component conversions and bounding volumes are parameters."
  },
  {
   "property": "C49",
   "status": "proved",
   "theorems": [
    "Verif.Props.C49_sorted"
   ],
   "note": ""
  },
  {
   "property": "C50",
   "status": "proved",
   "theorems": [
    "Verif.Props.C50_mesh_files",
    "Verif.Props.C50_meshes",
    "Verif.Props.C50_saves_again",
    "Verif.Props.C50_binormals_only"
   ],
   "note": "With the float model. Files below 4 GiB, distinct names and subindices. Witness for the stated exception."
  },
  {
   "property": "C51",
   "status": "proved",
   "theorems": [
    "Verif.Props.C51_ssbh",
    "Verif.Props.C51_meshex",
    "Verif.Props.C51_adj"
   ],
   "note": ""
  },
  {
   "property": "C52",
   "status": "proved",
   "theorems": [
    "Verif.Props.C52_track",
    "Verif.Props.C52_animation",
    "Verif.Props.C52_huge_range"
   ],
   "note": "With the float model. Track data below 4 GiB. Witness that the limit of the range is needed."
  },
  {
   "property": "C53",
   "status": "partial",
   "theorems": [
    "Verif.Props.C53_second_save_partial",
    "Verif.Props.C53_drift"
   ],
   "note": "False as stated for compressed floats (witness). Proved for files whose tracks are boolean, pattern indices, or stored without compression."
  },
  {
   "property": "C54",
   "status": "proved",
   "theorems": [
    "Verif.Props.C54_vertex_precision",
    "Verif.Props.C54_half_overflow"
   ],
   "note": "With the float model. Witness that the limit for half floats is needed."
  },
  {
   "property": "C55",
   "status": "proved",
   "theorems": [
    "Verif.Props.C55_track",
    "Verif.Props.C55_animation",
    "Verif.Props.C55_not_unit"
   ],
   "note": "With the float model. Witness that rotations of another length are not kept."
  },
  {
   "property": "C56",
   "status": "proved",
   "theorems": [
    "Verif.Props.C56_modl",
    "Verif.Props.C56_modl_saved",
    "Verif.Props.C56_hlpb",
    "Verif.Props.C56_hlpb_saved",
    "Verif.Props.C56_matl",
    "Verif.Props.C56_matl_saved",
    "Verif.Props.C56_skel",
    "Verif.Props.C56_skel_saved",
    "Verif.Props.C56_meshex"
   ],
   "note": "Against a field by field relation between data types and format types."
  },
  {
   "property": "C57",
   "status": "proved",
   "theorems": [
    "Verif.Props.C57_layout",
    "Verif.Props.C57_saved",
    "Verif.Props.C57_half",
    "Verif.Props.C57_byte"
   ],
   "note": "Equivalence of reading with a direct description of the layout. C57_saved for files below 4 GiB and different objects."
  },
  {
   "property": "C58",
   "status": "proved",
   "theorems": [
    "Verif.Props.C58_layout",
    "Verif.Props.C58_saved"
   ],
   "note": "Versions 2.0 and 2.1. Equivalence of reading with a direct description of the layout, for every meaning of the float operations. C58_saved for files below 4 GiB."
  },
  {
   "property": "C59",
   "status": "proved",
   "theorems": [
    "Verif.Props.C59_layout",
    "Verif.Props.C59_code",
    "Verif.Props.C59_file",
    "Verif.Props.C59_panics",
    "Verif.Props.C59_names"
   ],
   "note": "Equivalence of reading with a direct description of the layout. Names that are not UTF-8 are a parameter."
  },
  {
   "property": "C60",
   "status": "proved",
   "theorems": [
    "Verif.Props.C60_groups",
    "Verif.Props.C60_panics",
    "Verif.Props.C60_not_saved",
    "Verif.Props.C60_debug_panics"
   ],
   "note": "Hash map order and overflow checks are parameters. Witness for the difference between debug and release builds."
  },
  {
   "property": "C61",
   "status": "proved",
   "theorems": [
    "Verif.Props.C61_fields",
    "Verif.Props.C61_file",
    "Verif.Props.C61_disjoint"
   ],
   "note": "Bounds are an arbitrary function of the points. Vertex counts of 2^32 and more cannot occur with buffers below 4 GiB."
  },
  {
   "property": "C62",
   "status": "proved",
   "theorems": [
    "Verif.Props.C62_round_trip",
    "Verif.Props.C62_success",
    "Verif.Props.C62_fits",
    "Verif.Props.C62_write_total",
    "Verif.Props.C62_keeps_before",
    "Verif.Props.C62_keeps_after",
    "Verif.Props.C62_append",
    "Verif.Props.C62_many",
    "Verif.Props.C62_position",
    "Verif.Props.C62_in_a_row",
    "Verif.Props.C62_misaligned",
    "Verif.Props.C62_cut",
    "Verif.Props.C62_embed"
   ],
   "note": "The stream is a Cursor<Vec<u8>> with any content and position."
  },
  {
   "property": "C63",
   "status": "proved",
   "theorems": [
    "Verif.Props.C63_round_trip",
    "Verif.Props.C63_exact",
    "Verif.Props.C63_same_json",
    "Verif.Props.C63_stable",
    "Verif.Props.C63_injective",
    "Verif.Props.C63_order",
    "Verif.Props.C63_written",
    "Verif.Props.C63_convert",
    "Verif.Props.C63_hex",
    "Verif.Props.C63_nul",
    "Verif.Props.C63_accepted",
    "Verif.Props.C63_adj",
    "Verif.Props.C63_nan",
    "Verif.Props.C63_changed"
   ],
   "note": "JSON values; for their text see C103. With witnesses for what is lost."
  },
  {
   "property": "C64",
   "status": "proved",
   "theorems": [
    "Verif.Props.C64_round_trip",
    "Verif.Props.C64_injective",
    "Verif.Props.C64_order",
    "Verif.Props.C64_accepted",
    "Verif.Props.C64_shdr",
    "Verif.Props.C64_written",
    "Verif.Props.C64_shown",
    "Verif.Props.C64_convert",
    "Verif.Props.C64_same_data",
    "Verif.Props.C64_unknown",
    "Verif.Props.C64_sampler",
    "Verif.Props.C64_blend_state",
    "Verif.Props.C64_uv_transforms",
    "Verif.Props.C64_anisotropy",
    "Verif.Props.C64_nan"
   ],
   "note": "JSON values; for their text see C103. For Mesh and Anim files the bytes are those of opening and saving (C50, C53)."
  },
  {
   "property": "C65",
   "status": "proved",
   "theorems": [
    "Verif.Props.C65_read",
    "Verif.Props.C65_read_type",
    "Verif.Props.C65_unique",
    "Verif.Props.C65_rejects",
    "Verif.Props.C65_written",
    "Verif.Props.C65_modl",
    "Verif.Props.C65_meshex",
    "Verif.Props.C65_meshex_written",
    "Verif.Props.C65_adj",
    "Verif.Props.C65_adj_written"
   ],
   "note": "All ten formats with all their versions, MeshEx and Adj."
  },
  {
   "property": "C66",
   "status": "proved",
   "theorems": [
    "Verif.Props.C66_modl",
    "Verif.Props.C66_hlpb",
    "Verif.Props.C66_matl",
    "Verif.Props.C66_skel",
    "Verif.Props.C66_meshex",
    "Verif.Props.C66_anim"
   ],
   "note": "Matrix product and inverse and the sphere around spheres are arbitrary functions. Hlpb and MeshEx: fewer than 2^32 constraints, groups and flags. Meshes are in C61."
  },
  {
   "property": "C67",
   "status": "proved",
   "theorems": [
    "Verif.Props.C67_read",
    "Verif.Props.C67_rejects",
    "Verif.Props.C67_mesh_object",
    "Verif.Props.C67_no_positions",
    "Verif.Props.C67_panics",
    "Verif.Props.C67_seams",
    "Verif.Props.C67_nan",
    "Verif.Props.C67_own",
    "Verif.Props.C67_exact",
    "Verif.Props.C67_unused"
   ],
   "note": "Only the first list of positions counts, as in the code."
  },
  {
   "property": "C68",
   "status": "proved",
   "theorems": [
    "Verif.Props.C68_panics",
    "Verif.Props.C68_saved",
    "Verif.Props.C68_write",
    "Verif.Props.C68_sign_missing",
    "Verif.Props.C68_overflow"
   ],
   "note": "Version 1.2 is in C60. Saved: fewer than 2^32 bytes and frames, as in C45."
  },
  {
   "property": "C69",
   "status": "proved",
   "theorems": [
    "Verif.Props.C69_image",
    "Verif.Props.C69_success",
    "Verif.Props.C69_small",
    "Verif.Props.C69_format",
    "Verif.Props.C69_next",
    "Verif.Props.C69_identical",
    "Verif.Props.C69_rule3_false",
    "Verif.Props.C69_meshex",
    "Verif.Props.C69_meshex_success",
    "Verif.Props.C69_adj"
   ],
   "note": "The description is in Image/Spec.lean, Image/Formats.lean, Image/MeshEx.lean and Image/Adj.lean and does not use the writer."
  },
  {
   "property": "C70",
   "status": "proved",
   "theorems": [
    "Verif.Props.C70_image",
    "Verif.Props.C70_success",
    "Verif.Props.C70_size",
    "Verif.Props.C70_aligned",
    "Verif.Props.C70_elements",
    "Verif.Props.C70_align_after",
    "Verif.Props.C70_repr_padding",
    "Verif.Props.C70_magic"
   ],
   "note": "Ty.ok are the conditions; the last four theorems show what happens without them."
  },
  {
   "property": "C71",
   "status": "partial",
   "theorems": [
    "Verif.Props.C71_derived",
    "Verif.Props.C71_formats_partial",
    "Verif.Props.C71_words_partial",
    "Verif.Props.C71_materials_partial",
    "Verif.Props.C71_models",
    "Verif.Props.C71_materials16",
    "Verif.Props.C71_passes",
    "Verif.Props.C71_materials15"
   ],
   "note": "Missing: models, materials and render passes on 32 bit platforms, where it is false (the last four theorems)."
  },
  {
   "property": "C72",
   "status": "proved",
   "theorems": [
    "Verif.Props.C72_read_back",
    "Verif.Props.C72_success",
    "Verif.Props.C72_resave"
   ],
   "note": ""
  },
  {
   "property": "C73",
   "status": "proved",
   "theorems": [
    "Verif.Props.C73_lib",
    "Verif.Props.C73_data",
    "Verif.Props.C73_shdr",
    "Verif.Props.C73_file",
    "Verif.Props.C73_lib_stable",
    "Verif.Props.C73_data_stable",
    "Verif.Props.C73_numbers",
    "Verif.Props.C73_too_large",
    "Verif.Props.C73_misspelled"
   ],
   "note": "Texts with the character U+0000 are outside, see C63_nul."
  },
  {
   "property": "C74",
   "status": "proved",
   "theorems": [
    "Verif.Props.C74_extension_of",
    "Verif.Props.C74_with_extension",
    "Verif.Props.C74_save",
    "Verif.Props.C74_saved",
    "Verif.Props.C74_failed",
    "Verif.Props.C74_save_as",
    "Verif.Props.C74_meshex_emptied",
    "Verif.Props.C74_data_save",
    "Verif.Props.C74_data_failed",
    "Verif.Props.C74_extension",
    "Verif.Props.C74_lib_show",
    "Verif.Props.C74_lib_back",
    "Verif.Props.C74_lib_frame",
    "Verif.Props.C74_data_show",
    "Verif.Props.C74_data_back",
    "Verif.Props.C74_data_frame",
    "Verif.Props.C74_data_unknown",
    "Verif.Props.C74_lib_round_trip",
    "Verif.Props.C74_data_round_trip"
   ],
   "note": "The disk is a map from paths to contents, see DESIGN.md."
  },
  {
   "property": "C75",
   "status": "partial",
   "theorems": [
    "Verif.Props.C75_lib_opens",
    "Verif.Props.C75_lib_names_partial",
    "Verif.Props.C75_nufx",
    "Verif.Props.C75_nufx_test",
    "Verif.Props.C75_data_names",
    "Verif.Props.C75_data_opens_partial",
    "Verif.Props.C75_nusrcmdlb",
    "Verif.Props.C75_test_partial",
    "Verif.Props.C75_test_missing"
   ],
   "note": "False as stated: ssbh_lib_json names Nufx files nuflxb instead of nufxlb, ssbh_data_json ignores nusrcmdlb, ssbh_test ignores nulstb and nusrcmdlb."
  },
  {
   "property": "C76",
   "status": "proved",
   "theorems": [
    "Verif.Props.C76_silent",
    "Verif.Props.C76_laid_out",
    "Verif.Props.C76_stops",
    "Verif.Props.C76_adj",
    "Verif.Props.C76_adj_report",
    "Verif.Props.C76_meshex",
    "Verif.Props.C76_panics"
   ],
   "note": ""
  },
  {
   "property": "C77",
   "status": "proved",
   "theorems": [
    "Verif.Props.C77_same_data",
    "Verif.Props.C77_finite",
    "Verif.Props.C77_same_file",
    "Verif.Props.C77_hidden"
   ],
   "note": ""
  },
  {
   "property": "C78",
   "status": "partial",
   "theorems": [
    "Verif.Props.C78_saved_partial",
    "Verif.Props.C78_rejected",
    "Verif.Props.C78_ignored",
    "Verif.Props.C78_not_kept",
    "Verif.Props.C78_old_entry",
    "Verif.Props.C78_old_entry_same",
    "Verif.Props.C78_old_entry_lost",
    "Verif.Props.C78_old_not_saved",
    "Verif.Props.C78_upgrade"
   ],
   "note": "False as stated: SkelData, ModlData and HlpbData are saved with the only version of the format, whatever their version fields say."
  },
  {
   "property": "C79",
   "status": "proved",
   "theorems": [
    "Verif.Props.C79_enums",
    "Verif.Props.C79_constants"
   ],
   "note": ""
  },
  {
   "property": "C80",
   "status": "proved",
   "theorems": [
    "Verif.Props.C80_anim",
    "Verif.Props.C80_mesh",
    "Verif.Props.C80_ssbh",
    "Verif.Props.C80_meshex",
    "Verif.Props.C80_adj"
   ],
   "note": "Animations of version 1.2 have no values."
  },
  {
   "property": "C81",
   "status": "proved",
   "theorems": [
    "Verif.Props.C81_modl",
    "Verif.Props.C81_hlpb",
    "Verif.Props.C81_matl",
    "Verif.Props.C81_skel",
    "Verif.Props.C81_meshex",
    "Verif.Props.C81_adj",
    "Verif.Props.C81_anim",
    "Verif.Props.C81_mesh",
    "Verif.Props.C81_anim_changes",
    "Verif.Props.C81_skel_large_parent",
    "Verif.Props.C81_mesh_binormals_only"
   ],
   "note": "The last three show that the conditions are needed."
  },
  {
   "property": "C82",
   "status": "proved",
   "theorems": [
    "Verif.Props.C82_mesh",
    "Verif.Props.C82_other_format"
   ],
   "note": "The second theorem shows that the condition on the formats is needed."
  },
  {
   "property": "C83",
   "status": "proved",
   "theorems": [
    "Verif.Props.C83_vector3",
    "Verif.Props.C83_vector4",
    "Verif.Props.C83_matrix3x3",
    "Verif.Props.C83_matrix4x4",
    "Verif.Props.C83_cols",
    "Verif.Props.C83_min3",
    "Verif.Props.C83_min4",
    "Verif.Props.C83_identity"
   ],
   "note": "Which one of two zeros of different sign min and max give is left open by Rust; the model takes the first one, the statement allows both."
  },
  {
   "property": "C84",
   "status": "proved",
   "theorems": [
    "Verif.Props.C84_drift",
    "Verif.Props.C84_again"
   ],
   "note": "With the float model. The values do drift, see C53. The last component of rotations is not a stored component, see C55."
  },
  {
   "property": "C85",
   "status": "proved",
   "theorems": [
    "Verif.Props.C85_boxes",
    "Verif.Props.C85_file",
    "Verif.Props.C85_rounding",
    "Verif.Props.C85_overflow"
   ],
   "note": "With the float model. That the geometry_tools crate finds the smallest and largest coordinates is a hypothesis (FindsBox, met by a fold of min and max); the bounding sphere is arbitrary, see C91."
  },
  {
   "property": "C86",
   "status": "proved",
   "theorems": [
    "Verif.Props.C86_shrinks",
    "Verif.Props.C86_forever",
    "Verif.Props.C86_grows"
   ],
   "note": "With the float model. All numbers of saves, with a size condition on the first file only."
  },
  {
   "property": "C87",
   "status": "partial",
   "theorems": [
    "Verif.Props.C87_accepted",
    "Verif.Props.C87_options",
    "Verif.Props.C87_same",
    "Verif.Props.C87_merge",
    "Verif.Props.C87_others",
    "Verif.Props.C87_formats",
    "Verif.Props.C87_effective_partial",
    "Verif.Props.C87_silent",
    "Verif.Props.C87_repr_lost",
    "Verif.Props.C87_inner"
   ],
   "note": "What is accepted and which value each option gets are proved for all attributes. That everything written has an effect is false, with witnesses."
  },
  {
   "property": "C88",
   "status": "proved",
   "theorems": [
    "Verif.Props.C88_outcome",
    "Verif.Props.C88_saved",
    "Verif.Props.C88_exact",
    "Verif.Props.C88_again",
    "Verif.Props.C88_not_saved"
   ],
   "note": "With the float model. Files of version 1.2 are never saved, see C60."
  },
  {
   "property": "C89",
   "status": "proved",
   "theorems": [
    "Verif.Props.C89_bound",
    "Verif.Props.C89_shared",
    "Verif.Props.C89_saved",
    "Verif.Props.C89_data_saved",
    "Verif.Props.C89_grows"
   ],
   "note": "For animations; the other formats read and write their arrays in the same way."
  },
  {
   "property": "C90",
   "status": "proved",
   "theorems": [
    "Verif.Props.C90_exact",
    "Verif.Props.C90_type",
    "Verif.Props.C90_accepted",
    "Verif.Props.C90_data",
    "Verif.Props.C90_data_same",
    "Verif.Props.C90_data_accepted",
    "Verif.Props.C90_mesh_data",
    "Verif.Props.C90_shdr_data"
   ],
   "note": "32 bits change `read_buffer` and the range of a track; bit positions in tracks above 64 MiB, allocation failures and writing are not modelled for 32 bits."
  },
  {
   "property": "C91",
   "status": "proved",
   "theorems": [
    "Verif.Props.C91_mesh",
    "Verif.Props.C91_meshex"
   ],
   "note": "That the geometry_tools crate computes spheres which contain the given points and spheres, up to a given error, is a hypothesis (FindsSphere, FindsSphereOfSpheres, met by largeGeometry)."
  },
  {
   "property": "C92",
   "status": "proved",
   "theorems": [
    "Verif.Props.C92_more",
    "Verif.Props.C92_more_meshex",
    "Verif.Props.C92_more_data",
    "Verif.Props.C92_saved",
    "Verif.Props.C92_saved_meshex",
    "Verif.Props.C92_saved_data",
    "Verif.Props.C92_adj"
   ],
   "note": "Opening ShdrData of a cut file is covered by C92_more_data and C92_saved; ShdrData can not be saved."
  },
  {
   "property": "C93",
   "status": "proved",
   "theorems": [
    "Verif.Props.C93_derived",
    "Verif.Props.C93_small",
    "Verif.Props.C93_meshEx",
    "Verif.Props.C93_adj",
    "Verif.Props.C93_materials",
    "Verif.Props.C93_vector",
    "Verif.Props.C93_texture",
    "Verif.Props.C93_mesh",
    "Verif.Props.C93_vertex",
    "Verif.Props.C93_uv",
    "Verif.Props.C93_sort",
    "Verif.Props.C93_model",
    "Verif.Props.C93_assign",
    "Verif.Props.C93_helpers",
    "Verif.Props.C93_skeleton",
    "Verif.Props.C93_move",
    "Verif.Props.C93_meshExData",
    "Verif.Props.C93_flags",
    "Verif.Props.C93_adjData",
    "Verif.Props.C93_anim",
    "Verif.Props.C93_track",
    "Verif.Props.C93_frames",
    "Verif.Props.C93_visibility"
   ],
   "note": "For skeletons the operations on matrices are any functions."
  },
  {
   "property": "C94",
   "status": "proved",
   "theorems": [
    "Verif.Props.C94_meshex_round_trip",
    "Verif.Props.C94_meshex_length",
    "Verif.Props.C94_meshex_own_length",
    "Verif.Props.C94_meshex_keeps",
    "Verif.Props.C94_meshex_start_lost",
    "Verif.Props.C94_many",
    "Verif.Props.C94_first_lost",
    "Verif.Props.C94_meshex_cut",
    "Verif.Props.C94_adj_written",
    "Verif.Props.C94_adj_read",
    "Verif.Props.C94_adj_exact",
    "Verif.Props.C94_adj_two"
   ],
   "note": "The stream is a Cursor<Vec<u8>> with any content and position."
  },
  {
   "property": "C95",
   "status": "proved",
   "theorems": [
    "Verif.Props.C95_room",
    "Verif.Props.C95_errors",
    "Verif.Props.C95_slice",
    "Verif.Props.C95_slice_odd",
    "Verif.Props.C95_slice_written",
    "Verif.Props.C95_zeros",
    "Verif.Props.C95_exact",
    "Verif.Props.C95_meshex_room",
    "Verif.Props.C95_meshex_slice",
    "Verif.Props.C95_adj_room",
    "Verif.Props.C95_adj_slice"
   ],
   "note": "Writing to a limited stream is writing without the limit up to the first write that ends after it."
  },
  {
   "property": "C96",
   "status": "proved",
   "theorems": [
    "Verif.Props.C96_modl",
    "Verif.Props.C96_hlpb",
    "Verif.Props.C96_matl",
    "Verif.Props.C96_skel",
    "Verif.Props.C96_anim",
    "Verif.Props.C96_mesh",
    "Verif.Props.C96_meshex",
    "Verif.Props.C96_adj",
    "Verif.Props.C96_adj_two"
   ],
   "note": "Keeps is what the first six theorems say about each type. Float conversions, bounding volumes and matrix operations are arbitrary functions."
  },
  {
   "property": "C97",
   "status": "proved",
   "theorems": [
    "Verif.Props.C97_glam",
    "Verif.Props.C97_glam_vector",
    "Verif.Props.C97_world",
    "Verif.Props.C97_saved",
    "Verif.Props.C97_whole",
    "Verif.Props.C97_identity",
    "Verif.Props.C97_points",
    "Verif.Props.C97_vectors",
    "Verif.Props.C97_rounding",
    "Verif.Props.C97_overflow"
   ],
   "note": "The products of the crate glam are any functions with a small error (AccurateProduct, AccurateVector), or IEEE 754 arithmetic in the order of glam, which has it (C97_glam). C97_whole and C97_identity are about the latter. Inverses are not covered."
  },
  {
   "property": "C98",
   "status": "proved",
   "theorems": [
    "Verif.Props.C98_others",
    "Verif.Props.C98_content",
    "Verif.Props.C98_grows",
    "Verif.Props.C98_value",
    "Verif.Props.C98_types",
    "Verif.Props.C98_data_types",
    "Verif.Props.C98_ssbh",
    "Verif.Props.C98_meshex",
    "Verif.Props.C98_data",
    "Verif.Props.C98_ends",
    "Verif.Props.C98_disk",
    "Verif.Props.C98_adj",
    "Verif.Props.C98_lost"
   ],
   "note": "What a call of the operating system wrote is taken to be in the file and not to be lost any more, so loss of power is not covered. C98_types and C98_data_types say for which types C98_value holds."
  },
  {
   "property": "C99",
   "status": "proved",
   "theorems": [
    "Verif.Props.C99_open_still",
    "Verif.Props.C99_open_ends",
    "Verif.Props.C99_open_missing",
    "Verif.Props.C99_open",
    "Verif.Props.C99_open_after",
    "Verif.Props.C99_open_after_value",
    "Verif.Props.C99_whole",
    "Verif.Props.C99_whole_saved",
    "Verif.Props.C99_bytes",
    "Verif.Props.C99_same",
    "Verif.Props.C99_open_mixture",
    "Verif.Props.C99_save_mixture"
   ],
   "note": "Calls of the operating system are atomic. The programs only save and open: no file is removed or renamed. C98_types says for which types FromStart holds."
  },
  {
   "property": "C100",
   "status": "proved",
   "theorems": [
    "Verif.Props.C100_ssbh",
    "Verif.Props.C100_format",
    "Verif.Props.C100_meshex",
    "Verif.Props.C100_adj",
    "Verif.Props.C100_modl",
    "Verif.Props.C100_hlpb",
    "Verif.Props.C100_matl",
    "Verif.Props.C100_skel",
    "Verif.Props.C100_meshex_data",
    "Verif.Props.C100_adj_data",
    "Verif.Props.C100_mesh",
    "Verif.Props.C100_anim",
    "Verif.Props.C100_values",
    "Verif.Props.C100_rounded"
   ],
   "note": "C100_rounded shows that compressed tracks are an exception. C100_mesh and C100_rounded with the float model."
  },
  {
   "property": "C101",
   "status": "proved",
   "theorems": [
    "Verif.Props.C101_modl",
    "Verif.Props.C101_hlpb",
    "Verif.Props.C101_matl",
    "Verif.Props.C101_skel",
    "Verif.Props.C101_anim",
    "Verif.Props.C101_mesh",
    "Verif.Props.C101_meshex",
    "Verif.Props.C101_adj",
    "Verif.Props.C101_adj_slice"
   ],
   "note": "Limited is what the first six theorems say about each type. Float conversions, bounding volumes and matrix operations are arbitrary functions. What is in the memory after a failure is not stated."
  },
  {
   "property": "C102",
   "status": "proved",
   "theorems": [
    "Verif.Props.C102_decimal",
    "Verif.Props.C102_read_back",
    "Verif.Props.C102_different",
    "Verif.Props.C102_shortest",
    "Verif.Props.C102_trailing_zero",
    "Verif.Props.C102_overflow"
   ],
   "note": "Printer and parser of serde_json are modelled from their published source. Which decimal is printed is a parameter; the one with the largest exponent is shown to be possible."
  },
  {
   "property": "C103",
   "status": "proved",
   "theorems": [
    "Verif.Props.C103_value",
    "Verif.Props.C103_different",
    "Verif.Props.C103_around",
    "Verif.Props.C103_characters",
    "Verif.Props.C103_lib",
    "Verif.Props.C103_data",
    "Verif.Props.C103_sized",
    "Verif.Props.C103_lib_program",
    "Verif.Props.C103_data_program"
   ],
   "note": "Printer and parser of serde_json are modelled from their published source. The parser makes a value, which gets its type afterwards."
  },
  {
   "property": "C104",
   "status": "proved",
   "theorems": [
    "Verif.Props.C104_extended",
    "Verif.Props.C104_prefix",
    "Verif.Props.C104_number",
    "Verif.Props.C104_bytes",
    "Verif.Props.C104_lib",
    "Verif.Props.C104_data",
    "Verif.Props.C104_stopped",
    "Verif.Props.C104_data_stopped"
   ],
   "note": "The steps of writing are those of C98: what a call of the operating system wrote is not lost any more."
  },
  {
   "property": "C105",
   "status": "proved",
   "theorems": [
    "Verif.Props.C105_grammar",
    "Verif.Props.C105_rejected",
    "Verif.Props.C105_unambiguous",
    "Verif.Props.C105_integer",
    "Verif.Props.C105_real",
    "Verif.Props.C105_lib",
    "Verif.Props.C105_data"
   ],
   "note": "The grammar is a specification of its own. The values of floats are those of C102; how exact they are is C106. The parser makes a value, which gets its type afterwards: in entries that no type has, the crate also accepts deeper nesting, larger numbers and lone surrogates."
  },
  {
   "property": "C106",
   "status": "proved",
   "theorems": [
    "Verif.Props.C106_near",
    "Verif.Props.C106_exact",
    "Verif.Props.C106_error",
    "Verif.Props.C106_zero",
    "Verif.Props.C106_large",
    "Verif.Props.C106_integer",
    "Verif.Props.C106_not_nearest"
   ],
   "note": "The number of a text is a specification of its own (`Json/NumberSpec.lean`). The float reader is a model of the published source of serde_json, which is not part of the repository."
  },
  {
   "property": "C107",
   "status": "proved",
   "theorems": [
    "Verif.Props.C107_edit",
    "Verif.Props.C107_parts",
    "Verif.Props.C107_elements",
    "Verif.Props.C107_lib",
    "Verif.Props.C107_data"
   ],
   "note": "Parts and replacement are a specification of their own (`J.get` and `J.put` in `Json/Edit.lean`). An element whose JSON is nested deeper than 125 is outside of `C107_elements`. The reader of JSON text is a model of the published source of serde_json, as for C105."
  },
  {
   "property": "C108",
   "status": "proved",
   "theorems": [
    "Verif.Props.C108_program",
    "Verif.Props.C108_skeleton",
    "Verif.Props.C108_model",
    "Verif.Props.C108_material",
    "Verif.Props.C108_aim",
    "Verif.Props.C108_orient",
    "Verif.Props.C108_meshex",
    "Verif.Props.C108_mesh"
   ],
   "note": "`C107_elements` gives the first hypothesis of `C108_program` for every list. What opening a saved animation or adjacency file gives is C45."
  },
  {
   "property": "C109",
   "status": "proved",
   "theorems": [
    "Verif.Props.C109_lib",
    "Verif.Props.C109_data",
    "Verif.Props.C109_lib_file",
    "Verif.Props.C109_data_file",
    "Verif.Props.C109_lib_text",
    "Verif.Props.C109_data_text",
    "Verif.Props.C109_model",
    "Verif.Props.C109_materials"
   ],
   "note": "Which shape a part has is a specification of its own (`Shape.part` in `Json/ShapeEdit.lean`, on the shapes of C73). `C109_model` and `C109_materials` are the exceptions."
  },
  {
   "property": "C110",
   "status": "proved",
   "theorems": [
    "Verif.Props.C110_program",
    "Verif.Props.C110_data"
   ],
   "note": "What JSON does not show of a file (names that are not UTF-8, see C63) may be lost. What opening the saved data gives is C45 and C108. For the eight data types a value that is not accepted is not described in models and materials, see `C109_model`."
  },
  {
   "property": "C111",
   "status": "proved",
   "theorems": [
    "Verif.Props.C111_track",
    "Verif.Props.C111_track_bytes",
    "Verif.Props.C111_opens",
    "Verif.Props.C111_object",
    "Verif.Props.C111_bone",
    "Verif.Props.C111_bone_file",
    "Verif.Props.C111_bone_edit",
    "Verif.Props.C111_bone_added"
   ],
   "note": "Float operations, bounding volumes and matrix operations are parameters. Opening is that of C45 for saved files. `IsAncestor` follows parent indices."
  },
  {
   "property": "C112",
   "status": "proved",
   "theorems": [
    "Verif.Props.C112_object",
    "Verif.Props.C112_opens"
   ],
   "note": "`MovedObject` says that two objects have the same fields but the offsets, that the data of the first one, up to the end of its buffers, is also where the data of the second one starts, and that they have the same weights. To compare two objects with different data behind them take a mesh whose buffers end with the data as the first one for both."
  },
  {
   "property": "C113",
   "status": "proved",
   "theorems": [
    "Verif.Props.C113_number",
    "Verif.Props.C113_hlpb",
    "Verif.Props.C113_matl",
    "Verif.Props.C113_skel",
    "Verif.Props.C113_meshex",
    "Verif.Props.C113_anim",
    "Verif.Props.C113_lawful",
    "Verif.Props.C113_reopened_hlpb",
    "Verif.Props.C113_reopened_matl",
    "Verif.Props.C113_reopened_skel",
    "Verif.Props.C113_reopened_meshex",
    "Verif.Props.C113_equal_not_same"
   ],
   "note": "The derived comparisons are modelled field by field; `plus` and `nanFree` say for every type what the signs of zeros and NaNs in it are. `ModlData` and `AdjData` contain no floats, their == is equality; `MeshData` has no ==."
  },
  {
   "property": "C114",
   "status": "proved",
   "theorems": [
    "Verif.Props.C114_modl",
    "Verif.Props.C114_hlpb",
    "Verif.Props.C114_matl",
    "Verif.Props.C114_skel",
    "Verif.Props.C114_meshex",
    "Verif.Props.C114_anim"
   ],
   "note": "The conditions are necessary and sufficient. AdjData is C45_adj, longer tracks are C28 and C52."
  },
  {
   "property": "C115",
   "status": "proved",
   "theorems": [
    "Verif.Props.C115_world",
    "Verif.Props.C115_file",
    "Verif.Props.C115_cycle",
    "Verif.Props.C115_order",
    "Verif.Props.C115_merged",
    "Verif.Props.C115_merged_file"
   ],
   "note": "`Moves` and `MovesAll` say that bones are in another skeleton with new indices. That a missing parent in the first of two skeletons matters is an example in the same file."
  },
  {
   "property": "C116",
   "status": "proved",
   "theorems": [
    "Verif.Props.C116_file",
    "Verif.Props.C116_entry",
    "Verif.Props.C116_lost",
    "Verif.Props.C116_order"
   ],
   "note": "`KeptAttributes` is the specification; the types are numbered as in the file. A material with all of these cases is an example in the same file."
  },
  {
   "property": "C117",
   "status": "proved",
   "theorems": [
    "Verif.Props.C117_modl",
    "Verif.Props.C117_hlpb",
    "Verif.Props.C117_matl",
    "Verif.Props.C117_skel"
   ],
   "note": "Each is an equivalence. Contents means what the format types read; the layout of the bytes is not compared. Files that meet the conditions and files that do not are examples in the same file."
  }
 ]
}
