import Verif.Props.AdjData
import Verif.Props.AdjFiles
import Verif.Props.AnimBits
import Verif.Props.AnimEdits
import Verif.Props.AnimFiles
import Verif.Props.AnimLayout
import Verif.Props.AnimPanics
import Verif.Props.AnimTracks
import Verif.Props.AnimV12
import Verif.Props.Anywhere
import Verif.Props.Attributes
import Verif.Props.Bounding
import Verif.Props.Compare
import Verif.Props.Concurrent
import Verif.Props.Conversions
import Verif.Props.CutText
import Verif.Props.DataEdits
import Verif.Props.DataFiles
import Verif.Props.DataRoom
import Verif.Props.DataStreams
import Verif.Props.Derive
import Verif.Props.Disk
import Verif.Props.Documents
import Verif.Props.Drift
import Verif.Props.Edits
import Verif.Props.EnumNames
import Verif.Props.EqualFiles
import Verif.Props.FileLayout
import Verif.Props.Files
import Verif.Props.FloatText
import Verif.Props.Floats
import Verif.Props.Image
import Verif.Props.Independent
import Verif.Props.Interrupted
import Verif.Props.Json
import Verif.Props.JsonData
import Verif.Props.JsonEdit
import Verif.Props.JsonField
import Verif.Props.JsonGrammar
import Verif.Props.JsonParts
import Verif.Props.JsonPipeline
import Verif.Props.JsonText
import Verif.Props.Limits
import Verif.Props.MaterialEdits
import Verif.Props.MatlResave
import Verif.Props.MeshData
import Verif.Props.MeshEditLaws
import Verif.Props.MeshEdits
import Verif.Props.MeshExData
import Verif.Props.MeshFields
import Verif.Props.MeshKept
import Verif.Props.MeshLayout
import Verif.Props.MeshParts
import Verif.Props.Narrow
import Verif.Props.NumberAccuracy
import Verif.Props.OpenAnim
import Verif.Props.OpenedSize
import Verif.Props.PlainDataEdits
import Verif.Props.PlainEdits
import Verif.Props.PlainFiles
import Verif.Props.PlainStreamLaws
import Verif.Props.PlainStreams
import Verif.Props.Platforms
import Verif.Props.Pointers
import Verif.Props.Precision
import Verif.Props.Programs
import Verif.Props.Renumber
import Verif.Props.Resave
import Verif.Props.Room
import Verif.Props.RoomLaws
import Verif.Props.Rotations
import Verif.Props.SameFile
import Verif.Props.SavedEqual
import Verif.Props.SavedFields
import Verif.Props.Sharing
import Verif.Props.ShdrLayout
import Verif.Props.Shown
import Verif.Props.Shrink
import Verif.Props.SkelData
import Verif.Props.Spheres
import Verif.Props.Streams
import Verif.Props.Truncated
import Verif.Props.Unchanged
import Verif.Props.Vectors
import Verif.Props.Versions
import Verif.Props.WorldTransforms
/-!
# Axioms

Prints the axioms of every theorem of the manifest. Written by tools/manifest.py.
-/

#print axioms Verif.Props.C01_ssbh_round_trip
#print axioms Verif.Props.C01_format_round_trip
#print axioms Verif.Props.C01_write_total
#print axioms Verif.Props.C02_rewrite_fixed_point
#print axioms Verif.Props.C03_trailing_bytes
#print axioms Verif.Props.C03_only_written_bytes
#print axioms Verif.Props.C04_no_overlap
#print axioms Verif.Props.C05_offsets
#print axioms Verif.Props.C07_nonnull_written
#print axioms Verif.Props.C07_array_written
#print axioms Verif.Props.C06_padding_zero
#print axioms Verif.Props.C69_image
#print axioms Verif.Props.C07_null_written
#print axioms Verif.Props.C07_buffer_written
#print axioms Verif.Props.C07_enum_written
#print axioms Verif.Props.C07_null_read
#print axioms Verif.Props.C08_read_checks
#print axioms Verif.Props.C08_foreign_rejected
#print axioms Verif.Props.C08_wrong_type
#print axioms Verif.Props.C08_enum_tags
#print axioms Verif.Props.C08_param_tags
#print axioms Verif.Props.C09_version_written
#print axioms Verif.Props.C09_version_read
#print axioms Verif.Props.C10_pointer
#print axioms Verif.Props.C10_overflow
#print axioms Verif.Props.C11_byte_buffer
#print axioms Verif.Props.C12_array
#print axioms Verif.Props.C12_array_fits
#print axioms Verif.Props.C12_array_fits_formats
#print axioms Verif.Props.C13_from_bytes
#print axioms Verif.Props.C13_string_written
#print axioms Verif.Props.C13_string_read
#print axioms Verif.Props.C14_pointer_exact
#print axioms Verif.Props.C14_pointer_too_large
#print axioms Verif.Props.C15_meshex_counts
#print axioms Verif.Props.C15_meshex_file
#print axioms Verif.Props.C16_mesh_padding
#print axioms Verif.Props.C16_anim_padding
#print axioms Verif.Props.C17_adj_written
#print axioms Verif.Props.C17_adj_round_trip
#print axioms Verif.Props.C18_identity
#print axioms Verif.Props.C18_ranges
#print axioms Verif.Props.C19_adjacency
#print axioms Verif.Props.C19_panics_iff
#print axioms Verif.Props.C20_round_trip
#print axioms Verif.Props.C20_read_exact
#print axioms Verif.Props.C20_past_end
#print axioms Verif.Props.C20_write_frame
#print axioms Verif.Props.C21_exact_bits
#print axioms Verif.Props.C21_write_total
#print axioms Verif.Props.C22_boolean_lossless
#print axioms Verif.Props.C23_pattern_lossless_partial
#print axioms Verif.Props.C23_pattern_lossy
#print axioms Verif.Props.C24_frame_count_partial
#print axioms Verif.Props.C24_constant_loses_frames
#print axioms Verif.Props.C25_exact_error
#print axioms Verif.Props.C25_exact_again
#print axioms Verif.Props.C26_uncompressed_round_trip
#print axioms Verif.Props.C27_ranges_partial
#print axioms Verif.Props.C27_disjoint_partial
#print axioms Verif.Props.C27_ranges_modulo
#print axioms Verif.Props.C27_offsets_wrap
#print axioms Verif.Props.C27_bad_range_rejected
#print axioms Verif.Props.C27_bad_range_error
#print axioms Verif.Props.C28_structure_preserved
#print axioms Verif.Props.C28_names
#print axioms Verif.Props.C29_outcome
#print axioms Verif.Props.C29_beyond_limit
#print axioms Verif.Props.C30_sizes_partial
#print axioms Verif.Props.C30_boolean_grows
#print axioms Verif.Props.C31_round_trip
#print axioms Verif.Props.C31_identity
#print axioms Verif.Props.C31_references
#print axioms Verif.Props.C31_each_once
#print axioms Verif.Props.C32_round_trip
#print axioms Verif.Props.C32_identity
#print axioms Verif.Props.C32_nul_cut
#print axioms Verif.Props.C33_round_trip
#print axioms Verif.Props.C33_identity
#print axioms Verif.Props.C33_entries
#print axioms Verif.Props.C34_prefix
#print axioms Verif.Props.C34_no_tags
#print axioms Verif.Props.C34_unchanged
#print axioms Verif.Props.C34_cut_at_tag
#print axioms Verif.Props.C34_cut_shape
#print axioms Verif.Props.C34_idempotent_partial
#print axioms Verif.Props.C34_not_idempotent
#print axioms Verif.Props.C35_succeeds_iff
#print axioms Verif.Props.C35_failure
#print axioms Verif.Props.C35_round_trip
#print axioms Verif.Props.C35_identity_partial
#print axioms Verif.Props.C35_large_parent
#print axioms Verif.Props.C35_file_arrays
#print axioms Verif.Props.C36_terminates
#print axioms Verif.Props.C36_cycle_iff
#print axioms Verif.Props.C36_cycle_index
#print axioms Verif.Props.C36_product
#print axioms Verif.Props.C36_ancestors_unique
#print axioms Verif.Props.C37_iff
#print axioms Verif.Props.C37_other_order_partial
#print axioms Verif.Props.C37_fails
#print axioms Verif.Props.C38_round_trip
#print axioms Verif.Props.C38_identity
#print axioms Verif.Props.C38_other_versions
#print axioms Verif.Props.C39_attributes
#print axioms Verif.Props.C39_shape
#print axioms Verif.Props.C40_created_iff
#print axioms Verif.Props.C40_object
#print axioms Verif.Props.C40_in_range
#print axioms Verif.Props.C41_round_trip
#print axioms Verif.Props.C41_width
#print axioms Verif.Props.C42_round_trip
#print axioms Verif.Props.C42_shared
#print axioms Verif.Props.C42_duplicates
#print axioms Verif.Props.C42_index_limit
#print axioms Verif.Props.C42_nul_fails
#print axioms Verif.Props.C43_max
#print axioms Verif.Props.C43_stored
#print axioms Verif.Props.C43_wraps
#print axioms Verif.Props.C44_shape
#print axioms Verif.Props.C44_values
#print axioms Verif.Props.C45_modl
#print axioms Verif.Props.C45_hlpb
#print axioms Verif.Props.C45_matl
#print axioms Verif.Props.C45_skel
#print axioms Verif.Props.C45_meshex
#print axioms Verif.Props.C45_adj
#print axioms Verif.Props.C45_anim_file
#print axioms Verif.Props.C45_mesh
#print axioms Verif.Props.C46_groups
#print axioms Verif.Props.C46_entries
#print axioms Verif.Props.C47_modl
#print axioms Verif.Props.C47_hlpb
#print axioms Verif.Props.C47_matl
#print axioms Verif.Props.C47_skel
#print axioms Verif.Props.C47_meshex
#print axioms Verif.Props.C47_adj
#print axioms Verif.Props.C48_round_trip
#print axioms Verif.Props.C48_nul_free
#print axioms Verif.Props.C49_sorted
#print axioms Verif.Props.C50_mesh_files
#print axioms Verif.Props.C50_meshes
#print axioms Verif.Props.C50_saves_again
#print axioms Verif.Props.C50_binormals_only
#print axioms Verif.Props.C51_ssbh
#print axioms Verif.Props.C51_meshex
#print axioms Verif.Props.C51_adj
#print axioms Verif.Props.C52_track
#print axioms Verif.Props.C52_animation
#print axioms Verif.Props.C52_huge_range
#print axioms Verif.Props.C53_second_save_partial
#print axioms Verif.Props.C53_drift
#print axioms Verif.Props.C54_vertex_precision
#print axioms Verif.Props.C54_half_overflow
#print axioms Verif.Props.C55_track
#print axioms Verif.Props.C55_animation
#print axioms Verif.Props.C55_not_unit
#print axioms Verif.Props.C56_modl
#print axioms Verif.Props.C56_modl_saved
#print axioms Verif.Props.C56_hlpb
#print axioms Verif.Props.C56_hlpb_saved
#print axioms Verif.Props.C56_matl
#print axioms Verif.Props.C56_matl_saved
#print axioms Verif.Props.C56_skel
#print axioms Verif.Props.C56_skel_saved
#print axioms Verif.Props.C56_meshex
#print axioms Verif.Props.C57_layout
#print axioms Verif.Props.C57_saved
#print axioms Verif.Props.C57_half
#print axioms Verif.Props.C57_byte
#print axioms Verif.Props.C58_layout
#print axioms Verif.Props.C58_saved
#print axioms Verif.Props.C59_layout
#print axioms Verif.Props.C59_code
#print axioms Verif.Props.C59_file
#print axioms Verif.Props.C59_panics
#print axioms Verif.Props.C59_names
#print axioms Verif.Props.C60_groups
#print axioms Verif.Props.C60_panics
#print axioms Verif.Props.C60_not_saved
#print axioms Verif.Props.C60_debug_panics
#print axioms Verif.Props.C61_fields
#print axioms Verif.Props.C61_file
#print axioms Verif.Props.C61_disjoint
#print axioms Verif.Props.C62_round_trip
#print axioms Verif.Props.C62_success
#print axioms Verif.Props.C62_fits
#print axioms Verif.Props.C62_write_total
#print axioms Verif.Props.C62_keeps_before
#print axioms Verif.Props.C62_keeps_after
#print axioms Verif.Props.C62_append
#print axioms Verif.Props.C62_many
#print axioms Verif.Props.C62_position
#print axioms Verif.Props.C62_in_a_row
#print axioms Verif.Props.C62_misaligned
#print axioms Verif.Props.C62_cut
#print axioms Verif.Props.C62_embed
#print axioms Verif.Props.C63_round_trip
#print axioms Verif.Props.C63_exact
#print axioms Verif.Props.C63_same_json
#print axioms Verif.Props.C63_stable
#print axioms Verif.Props.C63_injective
#print axioms Verif.Props.C63_order
#print axioms Verif.Props.C63_written
#print axioms Verif.Props.C63_convert
#print axioms Verif.Props.C63_hex
#print axioms Verif.Props.C63_nul
#print axioms Verif.Props.C63_accepted
#print axioms Verif.Props.C63_adj
#print axioms Verif.Props.C63_nan
#print axioms Verif.Props.C63_changed
#print axioms Verif.Props.C64_round_trip
#print axioms Verif.Props.C64_injective
#print axioms Verif.Props.C64_order
#print axioms Verif.Props.C64_accepted
#print axioms Verif.Props.C64_shdr
#print axioms Verif.Props.C64_written
#print axioms Verif.Props.C64_shown
#print axioms Verif.Props.C64_convert
#print axioms Verif.Props.C64_same_data
#print axioms Verif.Props.C64_unknown
#print axioms Verif.Props.C64_sampler
#print axioms Verif.Props.C64_blend_state
#print axioms Verif.Props.C64_uv_transforms
#print axioms Verif.Props.C64_anisotropy
#print axioms Verif.Props.C64_nan
#print axioms Verif.Props.C65_read
#print axioms Verif.Props.C65_read_type
#print axioms Verif.Props.C65_unique
#print axioms Verif.Props.C65_rejects
#print axioms Verif.Props.C65_written
#print axioms Verif.Props.C65_modl
#print axioms Verif.Props.C65_meshex
#print axioms Verif.Props.C65_meshex_written
#print axioms Verif.Props.C65_adj
#print axioms Verif.Props.C65_adj_written
#print axioms Verif.Props.C66_modl
#print axioms Verif.Props.C66_hlpb
#print axioms Verif.Props.C66_matl
#print axioms Verif.Props.C66_skel
#print axioms Verif.Props.C66_meshex
#print axioms Verif.Props.C66_anim
#print axioms Verif.Props.C67_read
#print axioms Verif.Props.C67_rejects
#print axioms Verif.Props.C67_mesh_object
#print axioms Verif.Props.C67_no_positions
#print axioms Verif.Props.C67_panics
#print axioms Verif.Props.C67_seams
#print axioms Verif.Props.C67_nan
#print axioms Verif.Props.C67_own
#print axioms Verif.Props.C67_exact
#print axioms Verif.Props.C67_unused
#print axioms Verif.Props.C68_panics
#print axioms Verif.Props.C68_saved
#print axioms Verif.Props.C68_write
#print axioms Verif.Props.C68_sign_missing
#print axioms Verif.Props.C68_overflow
#print axioms Verif.Props.C69_success
#print axioms Verif.Props.C69_small
#print axioms Verif.Props.C69_format
#print axioms Verif.Props.C69_next
#print axioms Verif.Props.C69_identical
#print axioms Verif.Props.C69_rule3_false
#print axioms Verif.Props.C69_meshex
#print axioms Verif.Props.C69_meshex_success
#print axioms Verif.Props.C69_adj
#print axioms Verif.Props.C70_image
#print axioms Verif.Props.C70_success
#print axioms Verif.Props.C70_size
#print axioms Verif.Props.C70_aligned
#print axioms Verif.Props.C70_elements
#print axioms Verif.Props.C70_align_after
#print axioms Verif.Props.C70_repr_padding
#print axioms Verif.Props.C70_magic
#print axioms Verif.Props.C71_derived
#print axioms Verif.Props.C71_formats_partial
#print axioms Verif.Props.C71_words_partial
#print axioms Verif.Props.C71_materials_partial
#print axioms Verif.Props.C71_models
#print axioms Verif.Props.C71_materials16
#print axioms Verif.Props.C71_passes
#print axioms Verif.Props.C71_materials15
#print axioms Verif.Props.C72_read_back
#print axioms Verif.Props.C72_success
#print axioms Verif.Props.C72_resave
#print axioms Verif.Props.C73_lib
#print axioms Verif.Props.C73_data
#print axioms Verif.Props.C73_shdr
#print axioms Verif.Props.C73_file
#print axioms Verif.Props.C73_lib_stable
#print axioms Verif.Props.C73_data_stable
#print axioms Verif.Props.C73_numbers
#print axioms Verif.Props.C73_too_large
#print axioms Verif.Props.C73_misspelled
#print axioms Verif.Props.C74_extension_of
#print axioms Verif.Props.C74_with_extension
#print axioms Verif.Props.C74_save
#print axioms Verif.Props.C74_saved
#print axioms Verif.Props.C74_failed
#print axioms Verif.Props.C74_save_as
#print axioms Verif.Props.C74_meshex_emptied
#print axioms Verif.Props.C74_data_save
#print axioms Verif.Props.C74_data_failed
#print axioms Verif.Props.C74_extension
#print axioms Verif.Props.C74_lib_show
#print axioms Verif.Props.C74_lib_back
#print axioms Verif.Props.C74_lib_frame
#print axioms Verif.Props.C74_data_show
#print axioms Verif.Props.C74_data_back
#print axioms Verif.Props.C74_data_frame
#print axioms Verif.Props.C74_data_unknown
#print axioms Verif.Props.C74_lib_round_trip
#print axioms Verif.Props.C74_data_round_trip
#print axioms Verif.Props.C75_lib_opens
#print axioms Verif.Props.C75_lib_names_partial
#print axioms Verif.Props.C75_nufx
#print axioms Verif.Props.C75_nufx_test
#print axioms Verif.Props.C75_data_names
#print axioms Verif.Props.C75_data_opens_partial
#print axioms Verif.Props.C75_nusrcmdlb
#print axioms Verif.Props.C75_test_partial
#print axioms Verif.Props.C75_test_missing
#print axioms Verif.Props.C76_silent
#print axioms Verif.Props.C76_laid_out
#print axioms Verif.Props.C76_stops
#print axioms Verif.Props.C76_adj
#print axioms Verif.Props.C76_adj_report
#print axioms Verif.Props.C76_meshex
#print axioms Verif.Props.C76_panics
#print axioms Verif.Props.C77_same_data
#print axioms Verif.Props.C77_finite
#print axioms Verif.Props.C77_same_file
#print axioms Verif.Props.C77_hidden
#print axioms Verif.Props.C78_saved_partial
#print axioms Verif.Props.C78_rejected
#print axioms Verif.Props.C78_ignored
#print axioms Verif.Props.C78_not_kept
#print axioms Verif.Props.C78_old_entry
#print axioms Verif.Props.C78_old_entry_same
#print axioms Verif.Props.C78_old_entry_lost
#print axioms Verif.Props.C78_old_not_saved
#print axioms Verif.Props.C78_upgrade
#print axioms Verif.Props.C79_enums
#print axioms Verif.Props.C79_constants
#print axioms Verif.Props.C80_anim
#print axioms Verif.Props.C80_mesh
#print axioms Verif.Props.C80_ssbh
#print axioms Verif.Props.C80_meshex
#print axioms Verif.Props.C80_adj
#print axioms Verif.Props.C81_modl
#print axioms Verif.Props.C81_hlpb
#print axioms Verif.Props.C81_matl
#print axioms Verif.Props.C81_skel
#print axioms Verif.Props.C81_meshex
#print axioms Verif.Props.C81_adj
#print axioms Verif.Props.C81_anim
#print axioms Verif.Props.C81_mesh
#print axioms Verif.Props.C81_anim_changes
#print axioms Verif.Props.C81_skel_large_parent
#print axioms Verif.Props.C81_mesh_binormals_only
#print axioms Verif.Props.C82_mesh
#print axioms Verif.Props.C82_other_format
#print axioms Verif.Props.C83_vector3
#print axioms Verif.Props.C83_vector4
#print axioms Verif.Props.C83_matrix3x3
#print axioms Verif.Props.C83_matrix4x4
#print axioms Verif.Props.C83_cols
#print axioms Verif.Props.C83_min3
#print axioms Verif.Props.C83_min4
#print axioms Verif.Props.C83_identity
#print axioms Verif.Props.C84_drift
#print axioms Verif.Props.C84_again
#print axioms Verif.Props.C85_boxes
#print axioms Verif.Props.C85_file
#print axioms Verif.Props.C85_rounding
#print axioms Verif.Props.C85_overflow
#print axioms Verif.Props.C86_shrinks
#print axioms Verif.Props.C86_forever
#print axioms Verif.Props.C86_grows
#print axioms Verif.Props.C87_accepted
#print axioms Verif.Props.C87_options
#print axioms Verif.Props.C87_same
#print axioms Verif.Props.C87_merge
#print axioms Verif.Props.C87_others
#print axioms Verif.Props.C87_formats
#print axioms Verif.Props.C87_effective_partial
#print axioms Verif.Props.C87_silent
#print axioms Verif.Props.C87_repr_lost
#print axioms Verif.Props.C87_inner
#print axioms Verif.Props.C88_outcome
#print axioms Verif.Props.C88_saved
#print axioms Verif.Props.C88_exact
#print axioms Verif.Props.C88_again
#print axioms Verif.Props.C88_not_saved
#print axioms Verif.Props.C89_bound
#print axioms Verif.Props.C89_shared
#print axioms Verif.Props.C89_saved
#print axioms Verif.Props.C89_data_saved
#print axioms Verif.Props.C89_grows
#print axioms Verif.Props.C90_exact
#print axioms Verif.Props.C90_type
#print axioms Verif.Props.C90_accepted
#print axioms Verif.Props.C90_data
#print axioms Verif.Props.C90_data_same
#print axioms Verif.Props.C90_data_accepted
#print axioms Verif.Props.C90_mesh_data
#print axioms Verif.Props.C90_shdr_data
#print axioms Verif.Props.C91_mesh
#print axioms Verif.Props.C91_meshex
#print axioms Verif.Props.C92_more
#print axioms Verif.Props.C92_more_meshex
#print axioms Verif.Props.C92_more_data
#print axioms Verif.Props.C92_saved
#print axioms Verif.Props.C92_saved_meshex
#print axioms Verif.Props.C92_saved_data
#print axioms Verif.Props.C92_adj
#print axioms Verif.Props.C93_derived
#print axioms Verif.Props.C93_small
#print axioms Verif.Props.C93_meshEx
#print axioms Verif.Props.C93_adj
#print axioms Verif.Props.C93_materials
#print axioms Verif.Props.C93_vector
#print axioms Verif.Props.C93_texture
#print axioms Verif.Props.C93_mesh
#print axioms Verif.Props.C93_vertex
#print axioms Verif.Props.C93_uv
#print axioms Verif.Props.C93_sort
#print axioms Verif.Props.C93_model
#print axioms Verif.Props.C93_assign
#print axioms Verif.Props.C93_helpers
#print axioms Verif.Props.C93_skeleton
#print axioms Verif.Props.C93_move
#print axioms Verif.Props.C93_meshExData
#print axioms Verif.Props.C93_flags
#print axioms Verif.Props.C93_adjData
#print axioms Verif.Props.C93_anim
#print axioms Verif.Props.C93_track
#print axioms Verif.Props.C93_frames
#print axioms Verif.Props.C93_visibility
#print axioms Verif.Props.C94_meshex_round_trip
#print axioms Verif.Props.C94_meshex_length
#print axioms Verif.Props.C94_meshex_own_length
#print axioms Verif.Props.C94_meshex_keeps
#print axioms Verif.Props.C94_meshex_start_lost
#print axioms Verif.Props.C94_many
#print axioms Verif.Props.C94_first_lost
#print axioms Verif.Props.C94_meshex_cut
#print axioms Verif.Props.C94_adj_written
#print axioms Verif.Props.C94_adj_read
#print axioms Verif.Props.C94_adj_exact
#print axioms Verif.Props.C94_adj_two
#print axioms Verif.Props.C95_room
#print axioms Verif.Props.C95_errors
#print axioms Verif.Props.C95_slice
#print axioms Verif.Props.C95_slice_odd
#print axioms Verif.Props.C95_slice_written
#print axioms Verif.Props.C95_zeros
#print axioms Verif.Props.C95_exact
#print axioms Verif.Props.C95_meshex_room
#print axioms Verif.Props.C95_meshex_slice
#print axioms Verif.Props.C95_adj_room
#print axioms Verif.Props.C95_adj_slice
#print axioms Verif.Props.C96_modl
#print axioms Verif.Props.C96_hlpb
#print axioms Verif.Props.C96_matl
#print axioms Verif.Props.C96_skel
#print axioms Verif.Props.C96_anim
#print axioms Verif.Props.C96_mesh
#print axioms Verif.Props.C96_meshex
#print axioms Verif.Props.C96_adj
#print axioms Verif.Props.C96_adj_two
#print axioms Verif.Props.C97_glam
#print axioms Verif.Props.C97_glam_vector
#print axioms Verif.Props.C97_world
#print axioms Verif.Props.C97_saved
#print axioms Verif.Props.C97_whole
#print axioms Verif.Props.C97_identity
#print axioms Verif.Props.C97_points
#print axioms Verif.Props.C97_vectors
#print axioms Verif.Props.C97_rounding
#print axioms Verif.Props.C97_overflow
#print axioms Verif.Props.C98_others
#print axioms Verif.Props.C98_content
#print axioms Verif.Props.C98_grows
#print axioms Verif.Props.C98_value
#print axioms Verif.Props.C98_types
#print axioms Verif.Props.C98_data_types
#print axioms Verif.Props.C98_ssbh
#print axioms Verif.Props.C98_meshex
#print axioms Verif.Props.C98_data
#print axioms Verif.Props.C98_ends
#print axioms Verif.Props.C98_disk
#print axioms Verif.Props.C98_adj
#print axioms Verif.Props.C98_lost
#print axioms Verif.Props.C99_open_still
#print axioms Verif.Props.C99_open_ends
#print axioms Verif.Props.C99_open_missing
#print axioms Verif.Props.C99_open
#print axioms Verif.Props.C99_open_after
#print axioms Verif.Props.C99_open_after_value
#print axioms Verif.Props.C99_whole
#print axioms Verif.Props.C99_whole_saved
#print axioms Verif.Props.C99_bytes
#print axioms Verif.Props.C99_same
#print axioms Verif.Props.C99_open_mixture
#print axioms Verif.Props.C99_save_mixture
#print axioms Verif.Props.C100_ssbh
#print axioms Verif.Props.C100_format
#print axioms Verif.Props.C100_meshex
#print axioms Verif.Props.C100_adj
#print axioms Verif.Props.C100_modl
#print axioms Verif.Props.C100_hlpb
#print axioms Verif.Props.C100_matl
#print axioms Verif.Props.C100_skel
#print axioms Verif.Props.C100_meshex_data
#print axioms Verif.Props.C100_adj_data
#print axioms Verif.Props.C100_mesh
#print axioms Verif.Props.C100_anim
#print axioms Verif.Props.C100_values
#print axioms Verif.Props.C100_rounded
#print axioms Verif.Props.C101_modl
#print axioms Verif.Props.C101_hlpb
#print axioms Verif.Props.C101_matl
#print axioms Verif.Props.C101_skel
#print axioms Verif.Props.C101_anim
#print axioms Verif.Props.C101_mesh
#print axioms Verif.Props.C101_meshex
#print axioms Verif.Props.C101_adj
#print axioms Verif.Props.C101_adj_slice
#print axioms Verif.Props.C102_decimal
#print axioms Verif.Props.C102_read_back
#print axioms Verif.Props.C102_different
#print axioms Verif.Props.C102_shortest
#print axioms Verif.Props.C102_trailing_zero
#print axioms Verif.Props.C102_overflow
#print axioms Verif.Props.C103_value
#print axioms Verif.Props.C103_different
#print axioms Verif.Props.C103_around
#print axioms Verif.Props.C103_characters
#print axioms Verif.Props.C103_lib
#print axioms Verif.Props.C103_data
#print axioms Verif.Props.C103_sized
#print axioms Verif.Props.C103_lib_program
#print axioms Verif.Props.C103_data_program
#print axioms Verif.Props.C104_extended
#print axioms Verif.Props.C104_prefix
#print axioms Verif.Props.C104_number
#print axioms Verif.Props.C104_bytes
#print axioms Verif.Props.C104_lib
#print axioms Verif.Props.C104_data
#print axioms Verif.Props.C104_stopped
#print axioms Verif.Props.C104_data_stopped
#print axioms Verif.Props.C105_grammar
#print axioms Verif.Props.C105_rejected
#print axioms Verif.Props.C105_unambiguous
#print axioms Verif.Props.C105_integer
#print axioms Verif.Props.C105_real
#print axioms Verif.Props.C105_lib
#print axioms Verif.Props.C105_data
#print axioms Verif.Props.C106_near
#print axioms Verif.Props.C106_exact
#print axioms Verif.Props.C106_error
#print axioms Verif.Props.C106_zero
#print axioms Verif.Props.C106_large
#print axioms Verif.Props.C106_integer
#print axioms Verif.Props.C106_not_nearest
#print axioms Verif.Props.C107_edit
#print axioms Verif.Props.C107_parts
#print axioms Verif.Props.C107_elements
#print axioms Verif.Props.C107_lib
#print axioms Verif.Props.C107_data
#print axioms Verif.Props.C108_program
#print axioms Verif.Props.C108_skeleton
#print axioms Verif.Props.C108_model
#print axioms Verif.Props.C108_material
#print axioms Verif.Props.C108_aim
#print axioms Verif.Props.C108_orient
#print axioms Verif.Props.C108_meshex
#print axioms Verif.Props.C108_mesh
#print axioms Verif.Props.C109_lib
#print axioms Verif.Props.C109_data
#print axioms Verif.Props.C109_lib_file
#print axioms Verif.Props.C109_data_file
#print axioms Verif.Props.C109_lib_text
#print axioms Verif.Props.C109_data_text
#print axioms Verif.Props.C109_model
#print axioms Verif.Props.C109_materials
#print axioms Verif.Props.C110_program
#print axioms Verif.Props.C110_data
#print axioms Verif.Props.C111_track
#print axioms Verif.Props.C111_track_bytes
#print axioms Verif.Props.C111_opens
#print axioms Verif.Props.C111_object
#print axioms Verif.Props.C111_bone
#print axioms Verif.Props.C111_bone_file
#print axioms Verif.Props.C111_bone_edit
#print axioms Verif.Props.C111_bone_added
#print axioms Verif.Props.C112_object
#print axioms Verif.Props.C112_opens
#print axioms Verif.Props.C113_number
#print axioms Verif.Props.C113_hlpb
#print axioms Verif.Props.C113_matl
#print axioms Verif.Props.C113_skel
#print axioms Verif.Props.C113_meshex
#print axioms Verif.Props.C113_anim
#print axioms Verif.Props.C113_lawful
#print axioms Verif.Props.C113_reopened_hlpb
#print axioms Verif.Props.C113_reopened_matl
#print axioms Verif.Props.C113_reopened_skel
#print axioms Verif.Props.C113_reopened_meshex
#print axioms Verif.Props.C113_equal_not_same
#print axioms Verif.Props.C114_modl
#print axioms Verif.Props.C114_hlpb
#print axioms Verif.Props.C114_matl
#print axioms Verif.Props.C114_skel
#print axioms Verif.Props.C114_meshex
#print axioms Verif.Props.C114_anim
#print axioms Verif.Props.C115_world
#print axioms Verif.Props.C115_file
#print axioms Verif.Props.C115_cycle
#print axioms Verif.Props.C115_order
#print axioms Verif.Props.C115_merged
#print axioms Verif.Props.C115_merged_file
#print axioms Verif.Props.C116_file
#print axioms Verif.Props.C116_entry
#print axioms Verif.Props.C116_lost
#print axioms Verif.Props.C116_order
#print axioms Verif.Props.C117_modl
#print axioms Verif.Props.C117_hlpb
#print axioms Verif.Props.C117_matl
#print axioms Verif.Props.C117_skel
