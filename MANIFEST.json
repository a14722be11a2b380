{
 "claims": [
  {
   "property": "C01",
   "status": "partial",
   "theorems": [
    "Spoc.Props.c01_uncompressed_roundtrip_partial",
    "Spoc.Props.c01_hang"
   ],
   "note": "Exact round trip for up to 123 extra fields, any number of points, any bit patterns, any trailing bytes. Full statement false: with 124-255 extra fields and a point the reader loops forever (c01_hang)."
  },
  {
   "property": "C02",
   "status": "partial",
   "theorems": [
    "Spoc.Props.c02_compressed_roundtrip_partial",
    "Spoc.Props.c02_compressed_roundtrip_values",
    "Spoc.Props.c02_negative_zero_lost"
   ],
   "note": "Exact round trip unless a coordinate column consists of zeros with a negative zero among them; without that condition everything but the sign of zeros is preserved. Full statement false for -0.0 (c02_negative_zero_lost). zlib is a parameter assumed correct."
  },
  {
   "property": "C03",
   "status": "partial",
   "theorems": [
    "Spoc.Props.c03_compress_decompress_partial",
    "Spoc.Props.c03_values",
    "Spoc.Props.c03_accepts_uncompressed",
    "Spoc.Props.c03_negative_zero_lost"
   ],
   "note": "Exact unless a coordinate column consists of zeros with a negative zero among them (c03_negative_zero_lost); without that condition everything but the sign of zeros is preserved."
  },
  {
   "property": "C04",
   "status": "proved",
   "theorems": [
    "Spoc.Props.c04_header_roundtrip",
    "Spoc.Props.c04_constructed_header_roundtrip"
   ],
   "note": ""
  },
  {
   "property": "C05",
   "status": "partial",
   "theorems": [
    "Spoc.Props.c05_long_wkt_refused_partial",
    "Spoc.Props.c05_header_truncated"
   ],
   "note": "Files and constructed headers are refused before any byte is written. A header object whose WKT member is assigned afterwards is written with a truncated length (c05_header_truncated)."
  },
  {
   "property": "C06",
   "status": "partial",
   "theorems": [
    "Spoc.Props.c06_concatenated_files_partial"
   ],
   "note": "For every list of files that survive a round trip (conditions of C01 and C02)."
  },
  {
   "property": "C07",
   "status": "partial",
   "theorems": [
    "Spoc.Props.c07_truncated_prefix_partial",
    "Spoc.Props.c07_truncation_unnoticed"
   ],
   "note": "Full statement false: truncated files are read without complaint (c07_truncation_unnoticed). Proved: records completely contained in the truncated stream are returned correctly. The state of the stream always shows the truncation (c95_truncation_seen)."
  },
  {
   "property": "C08",
   "status": "proved",
   "theorems": [
    "Spoc.Props.c08_foreign_rejected",
    "Spoc.Props.c08_wrong_writer"
   ],
   "note": ""
  },
  {
   "property": "C09",
   "status": "proved",
   "theorems": [
    "Spoc.Props.c09_reader_safe"
   ],
   "note": "For every stream, build type and zlib."
  },
  {
   "property": "C10",
   "status": "partial",
   "theorems": [
    "Spoc.Props.c10_compress_roundtrip_partial",
    "Spoc.Props.c10_chunk_loop",
    "Spoc.Props.c10_4gib_lost"
   ],
   "note": "Full statement false at 4 GiB, where zlib's 32-bit counter wraps (c10_4gib_lost)."
  },
  {
   "property": "C11",
   "status": "proved",
   "theorems": [
    "Spoc.Props.c11_consistent",
    "Spoc.Props.c11_exception_unchanged",
    "Spoc.Props.c11_statements",
    "Spoc.Props.c11_no_ub"
   ],
   "note": "Histories over two objects. That an exception leaves the objects unchanged is proved on a model of the statements of each member function (Model/FileSteps), without allocation failures."
  },
  {
   "property": "C12",
   "status": "proved",
   "theorems": [
    "Spoc.Props.c12_push_back",
    "Spoc.Props.c12_set_point_record",
    "Spoc.Props.c12_set_point_record_ok",
    "Spoc.Props.c12_resize",
    "Spoc.Props.c12_frame",
    "Spoc.Props.c12_inconsistent_refused"
   ],
   "note": ""
  },
  {
   "property": "C13",
   "status": "partial",
   "theorems": [
    "Spoc.Props.c13_header_describes_file_partial",
    "Spoc.Props.c13_extra_fields_truncated"
   ],
   "note": "Full statement false above 255 extra fields (8-bit field)."
  },
  {
   "property": "C14",
   "status": "proved",
   "theorems": [
    "Spoc.Props.c14_equality_meaning",
    "Spoc.Props.c14_point_equality_meaning",
    "Spoc.Props.c14_equivalence",
    "Spoc.Props.c14_point_equivalence",
    "Spoc.Props.c14_extent_equality",
    "Spoc.Props.c14_header_equality",
    "Spoc.Props.c14_hash",
    "Spoc.Props.c14_point_hash"
   ],
   "note": "std::hash is a parameter assumed to respect == on doubles."
  },
  {
   "property": "C15",
   "status": "partial",
   "theorems": [
    "Spoc.Props.c15_extent_tight_partial",
    "Spoc.Props.c15_extent_bounds",
    "Spoc.Props.c15_nan",
    "Spoc.Props.c15_infinite"
   ],
   "note": "Proved for finite coordinates (bounds even for infinite ones). Full statement false with NaN (c15_nan) and for attainment with infinities (c15_infinite)."
  },
  {
   "property": "C16",
   "status": "proved",
   "theorems": [
    "Spoc.Props.c16_total_extent",
    "Spoc.Props.c16_order_independent",
    "Spoc.Props.c16_nan_order"
   ],
   "note": "For all clouds without NaN, infinities included; c16_nan_order shows that NaN must be excluded."
  },
  {
   "property": "C17",
   "status": "partial",
   "theorems": [
    "Spoc.Props.c17_add_axis",
    "Spoc.Props.c17_scale_axis",
    "Spoc.Props.c17_add_partial",
    "Spoc.Props.c17_rotate",
    "Spoc.Props.c17_quantize",
    "Spoc.Props.c17_voxel_indexes",
    "Spoc.Props.c17_output",
    "Spoc.Props.c17_get_voxel_indexes",
    "Spoc.Props.c17_radius_search",
    "Spoc.Props.c17_compress_columns",
    "Spoc.Props.c17_fill",
    "Spoc.Props.c17_same_as_sequential",
    "Spoc.Props.c17_add_aliased"
   ],
   "note": "Proved for every interleaving of the reads and writes of each OpenMP loop. Full statement false for affine::add when its reference argument aliases an element of the cloud (c17_add_aliased)."
  },
  {
   "property": "C18",
   "status": "partial",
   "theorems": [
    "Spoc.Props.c18_crop_partial",
    "Spoc.Props.c18_idempotent",
    "Spoc.Props.c18_own_extent_partial",
    "Spoc.Props.c18_nan_kept",
    "Spoc.Props.c18_own_extent_nan"
   ],
   "note": "Proved without NaN; idempotence for all clouds. Full statement false with NaN."
  },
  {
   "property": "C19",
   "status": "proved",
   "theorems": [
    "Spoc.Props.c19_strict_weak_order",
    "Spoc.Props.c19_nan"
   ],
   "note": ""
  },
  {
   "property": "C20",
   "status": "proved",
   "theorems": [
    "Spoc.Props.c20_point",
    "Spoc.Props.c20_extent",
    "Spoc.Props.c20_points",
    "Spoc.Props.c20_short_ub"
   ],
   "note": ""
  },
  {
   "property": "C21",
   "status": "partial",
   "theorems": [
    "Spoc.Props.c21_roundtrip_partial",
    "Spoc.Props.c21_not_one_step",
    "Spoc.Props.c21_flat_undefined",
    "Spoc.Props.c21_single_point"
   ],
   "note": "For clouds without flat side and magnitudes up to 2^900: well defined, integers at most 2^62, restored up to rounding (explicit bound). Full statement false: restoring can be many grid steps off (c21_not_one_step); a flat side, so every one-point cloud, is undefined behaviour (c21_flat_undefined, c21_single_point)."
  },
  {
   "property": "C22",
   "status": "proved",
   "theorems": [
    "Spoc.Props.c22_voxel_indexes",
    "Spoc.Props.c22_oversized",
    "Spoc.Props.c22_exact_not_enough"
   ],
   "note": "The bound is on the quotient as computed in double precision; c22_exact_not_enough shows that a bound on the exact quotient would not suffice, c22_oversized that the bound is needed."
  },
  {
   "property": "C23",
   "status": "proved",
   "theorems": [
    "Spoc.Props.c23_one_per_voxel",
    "Spoc.Props.c23_undefined"
   ],
   "note": "For every permutation the shuffle may produce."
  },
  {
   "property": "C24",
   "status": "proved",
   "theorems": [
    "Spoc.Props.c24_stable",
    "Spoc.Props.c24_subsequence"
   ],
   "note": ""
  },
  {
   "property": "C25",
   "status": "partial",
   "theorems": [
    "Spoc.Props.c25_idempotent_partial",
    "Spoc.Props.c25_not_idempotent"
   ],
   "note": "Proved when the subsampled cloud has the minimum corner of the original. Full statement false: the second run measures from a different corner (c25_not_idempotent)."
  },
  {
   "property": "C26",
   "status": "partial",
   "theorems": [
    "Spoc.Props.c26_unique",
    "Spoc.Props.c26_first",
    "Spoc.Props.c26_twice_partial",
    "Spoc.Props.c26_seeded_order"
   ],
   "note": "All parts proved; applying twice is the same as once only for seed 0 or up to the order of the records, since a seeded second run permutes them (c26_seeded_order)."
  },
  {
   "property": "C27",
   "status": "proved",
   "theorems": [
    "Spoc.Props.c27_sound",
    "Spoc.Props.c27_defined",
    "Spoc.Props.c27_indexes",
    "Spoc.Props.c27_all_neighbors",
    "Spoc.Props.c27_all",
    "Spoc.Props.c27_get_neighbors",
    "Spoc.Props.c27_distance",
    "Spoc.Props.c27_euclidean"
   ],
   "note": "The computed distance is the Euclidean distance up to one part in 2^49 for coordinates up to 2^490."
  },
  {
   "property": "C28",
   "status": "partial",
   "theorems": [
    "Spoc.Props.c28_complete_partial",
    "Spoc.Props.c28_all_neighbors_partial",
    "Spoc.Props.c28_all_partial",
    "Spoc.Props.c28_get_neighbors_partial",
    "Spoc.Props.c28_euclidean_partial",
    "Spoc.Props.c28_complete_adjacent_partial",
    "Spoc.Props.c28_incomplete",
    "Spoc.Props.c28_not_reported"
   ],
   "note": "Proved for candidates whose coordinate differences are at most (1 - 2^-19) times the radius, and for all candidates in adjacent voxels. Full statement false at the rim because of rounding (c28_not_reported)."
  },
  {
   "property": "C29",
   "status": "partial",
   "theorems": [
    "Spoc.Props.c29_enumerates_partial",
    "Spoc.Props.c29_candidates",
    "Spoc.Props.c29_voxels",
    "Spoc.Props.c29_overflow"
   ],
   "note": "For every voxel map, random sequence and build, and every centre whose neighbouring indexes fit an int. Undefined behaviour otherwise (c29_overflow)."
  },
  {
   "property": "C30",
   "status": "partial",
   "theorems": [
    "Spoc.Props.c30_distribution_partial",
    "Spoc.Props.c30_not_uniform"
   ],
   "note": "Full statement false: an off-by-one error gives the first non-empty voxel one index too many and the last one too few (c30_not_uniform). The exact distribution is proved."
  },
  {
   "property": "C31",
   "status": "partial",
   "theorems": [
    "Spoc.Props.c31_touches_only_named_partial",
    "Spoc.Props.c31_replace_not_touches_class"
   ],
   "note": "For every command except replace-not on p, i, r, g, b. Full statement false: those change the class instead (c31_replace_not_touches_class)."
  },
  {
   "property": "C32",
   "status": "proved",
   "theorems": [
    "Spoc.Props.c32_header_order_count",
    "Spoc.Props.c32_no_commands"
   ],
   "note": "Proved of the function apply; the application itself rejects an empty command list before calling it (c34_no_command_rejected)."
  },
  {
   "property": "C33",
   "status": "partial",
   "theorems": [
    "Spoc.Props.c33_replace_partial",
    "Spoc.Props.c33_replace_not_partial",
    "Spoc.Props.c33_replace_not_wrong",
    "Spoc.Props.c33_large_values_rejected"
   ],
   "note": "Proved for replace on all integer fields and replace-not on class and extra fields, values below 2^31. Full statement false: replace-not on p, i, r, g, b overwrites the class (c33_replace_not_wrong); values from 2^31 are rejected."
  },
  {
   "property": "C34",
   "status": "proved",
   "theorems": [
    "Spoc.Props.c34_compose",
    "Spoc.Props.c34_several_runs",
    "Spoc.Props.c34_no_command_rejected"
   ],
   "note": "For every input stream, also malformed ones."
  },
  {
   "property": "C35",
   "status": "partial",
   "theorems": [
    "Spoc.Props.c35_options_partial",
    "Spoc.Props.c35_noise_rejected"
   ],
   "note": "Full statement false: the eight noise options of the table are rejected (c35_noise_rejected)."
  },
  {
   "property": "C36",
   "status": "proved",
   "theorems": [
    "Spoc.Props.c36_library_and_app_agree",
    "Spoc.Props.c36_quantize_agrees"
   ],
   "note": "sin and cos are the same parameter on both sides."
  },
  {
   "property": "C37",
   "status": "partial",
   "theorems": [
    "Spoc.Props.c37_axis",
    "Spoc.Props.c37_exact_rotation_partial",
    "Spoc.Props.c37_axis_distance_partial",
    "Spoc.Props.c37_distance_partial",
    "Spoc.Props.c37_angle_partial",
    "Spoc.Props.c37_rotate_back_partial"
   ],
   "note": "sin and cos are a parameter with an assumed accuracy; error bounds are explicit; magnitudes up to 2^990."
  },
  {
   "property": "C38",
   "status": "partial",
   "theorems": [
    "Spoc.Props.c38_quantise_partial",
    "Spoc.Props.c38_file_partial",
    "Spoc.Props.c38_idempotent_partial",
    "Spoc.Props.c38_power_of_two_partial",
    "Spoc.Props.c38_out_of_range",
    "Spoc.Props.c38_zero_precision",
    "Spoc.Props.c38_not_idempotent",
    "Spoc.Props.c38_away_from_zero",
    "Spoc.Props.c38_full_step"
   ],
   "note": "Well defined and accurate up to rounding when the quotient fits 31 bits; exactly idempotent and never away from zero for precisions of at most 22 significant bits. Full statement false: undefined behaviour otherwise (c38_out_of_range), not idempotent (c38_not_idempotent), can move away from zero or by a full step."
  },
  {
   "property": "C39",
   "status": "proved",
   "theorems": [
    "Spoc.Props.c39_keep_remove",
    "Spoc.Props.c39_partition",
    "Spoc.Props.c39_app_keep",
    "Spoc.Props.c39_app_remove",
    "Spoc.Props.c39_not_a_number"
   ],
   "note": "What is not a number counts as class 0 (c39_not_a_number)."
  },
  {
   "property": "C40",
   "status": "partial",
   "theorems": [
    "Spoc.Props.c40_removes",
    "Spoc.Props.c40_rejects_partial",
    "Spoc.Props.c40_app",
    "Spoc.Props.c40_trailing_text_accepted"
   ],
   "note": "The accepted strings are characterised exactly and all others are rejected; full statement false because text after the number is ignored (c40_trailing_text_accepted)."
  },
  {
   "property": "C41",
   "status": "proved",
   "theorems": [
    "Spoc.Props.c41_merge",
    "Spoc.Props.c41_nothing_lost"
   ],
   "note": ""
  },
  {
   "property": "C42",
   "status": "proved",
   "theorems": [
    "Spoc.Props.c42_all_or_nothing",
    "Spoc.Props.c42_mismatch_writes_nothing",
    "Spoc.Props.c42_too_few_files",
    "Spoc.Props.c42_needs_all_inputs",
    "Spoc.Props.c41_merge"
   ],
   "note": "The compression flag, the spatial reference and the warning are part of c41_merge."
  },
  {
   "property": "C43",
   "status": "proved",
   "theorems": [
    "Spoc.Props.c43_partition",
    "Spoc.Props.c43_one_tile",
    "Spoc.Props.c43_tiles_written",
    "Spoc.Props.c43_tile_read_back",
    "Spoc.Props.c43_empty_undefined"
   ],
   "note": "Tile map, tile files and the loop that writes them over a model of the file system. Tile numbers are undefined for an empty file with a positive tile size (c43_empty_undefined), which the quantifier excludes."
  },
  {
   "property": "C44",
   "status": "proved",
   "theorems": [
    "Spoc.Props.c44_same_tile",
    "Spoc.Props.c44_grid_accurate"
   ],
   "note": "Exact for the floating-point grid; c44_grid_accurate relates the floating-point grid to the exact one."
  },
  {
   "property": "C45",
   "status": "partial",
   "theorems": [
    "Spoc.Props.c45_at_most_n_partial",
    "Spoc.Props.c45_app",
    "Spoc.Props.c45_one_too_many"
   ],
   "note": "Holds for extents up to 2^28; false for larger ones, where the enlargement by 2^-23 is lost in rounding (c45_one_too_many)."
  },
  {
   "property": "C46",
   "status": "partial",
   "theorems": [
    "Spoc.Props.c46_names",
    "Spoc.Props.c46_untouched_partial",
    "Spoc.Props.c46_unreadable_overwritten"
   ],
   "note": "Holds for files that can be read; a file that can be written but not read is overwritten without force (c46_unreadable_overwritten)."
  },
  {
   "property": "C47",
   "status": "partial",
   "theorems": [
    "Spoc.Props.c47_roundtrip_partial",
    "Spoc.Props.c47_app_partial",
    "Spoc.Props.c47_lossy",
    "Spoc.Props.c47_not_finite"
   ],
   "note": "Exact for integer fields and for coordinates determined by 16 significant decimal digits. Full statement false: other doubles change (c47_lossy), and text for NaN and infinities cannot be read back (c47_not_finite)."
  },
  {
   "property": "C48",
   "status": "partial",
   "theorems": [
    "Spoc.Props.c48_integers_partial",
    "Spoc.Props.c48_coordinates_partial",
    "Spoc.Props.c48_too_few_integers",
    "Spoc.Props.c48_too_few_coordinates",
    "Spoc.Props.c48_last_line_rejected",
    "Spoc.Props.c48_not_a_number_accepted",
    "Spoc.Props.c48_cut_off",
    "Spoc.Props.c48_surplus_accepted"
   ],
   "note": "Well-formed texts set the field exactly (integers modulo the width of the field, coordinates to a nearest double) and too few numbers are rejected. Full statement false: a last number without white space behind it is rejected, text that is not a number and surplus numbers are accepted, integers that do not fit are cut off."
  },
  {
   "property": "C49",
   "status": "proved",
   "theorems": [
    "Spoc.Props.c49_resize",
    "Spoc.Props.c49_restore",
    "Spoc.Props.c49_app"
   ],
   "note": "For every file and size the API accepts; the application's number is the decimal reading of its parameter."
  },
  {
   "property": "C50",
   "status": "proved",
   "theorems": [
    "Spoc.Props.c50_subtract_min",
    "Spoc.Props.c50_ties",
    "Spoc.Props.c50_infinite",
    "Spoc.Props.c50_c51_app"
   ],
   "note": "Order is preserved in the weak sense: rounding can make distinct coordinates equal (c50_ties), and a difference can overflow to infinity (c50_infinite)."
  },
  {
   "property": "C51",
   "status": "partial",
   "theorems": [
    "Spoc.Props.c51_recenter_partial",
    "Spoc.Props.c51_exact_partial",
    "Spoc.Props.c51_not_zero",
    "Spoc.Props.c51_overflow",
    "Spoc.Props.c50_c51_app"
   ],
   "note": "Explicit bound on the remaining mean; exactly zero when sums and mean are integers below 2^53. Full statement false: the mean is not exactly zero in general (c51_not_zero), and a sum can overflow (c51_overflow)."
  },
  {
   "property": "C52",
   "status": "proved",
   "theorems": [
    "Spoc.Props.c52_upsample",
    "Spoc.Props.c52_app",
    "Spoc.Props.c52_outside_undefined"
   ],
   "note": "Low-resolution points below the extent of the high-resolution file are undefined behaviour (c52_outside_undefined), which the quantifier excludes."
  },
  {
   "property": "C53",
   "status": "proved",
   "theorems": [
    "Spoc.Props.c53_subsample_upsample"
   ],
   "note": "For every shuffle and seed; that the voxel indexes are defined follows from the subsampling having succeeded."
  },
  {
   "property": "C54",
   "status": "proved",
   "theorems": [
    "Spoc.Props.c54_full",
    "Spoc.Props.c54_header_only",
    "Spoc.Props.c54_data_only",
    "Spoc.Props.c54_app",
    "Spoc.Props.c54_success",
    "Spoc.Props.c54_two_modes"
   ],
   "note": "Records are equal in the sense of the API: numerically equal coordinates, none of them NaN. Header-only and data-only together count as data-only (c54_two_modes)."
  },
  {
   "property": "C55",
   "status": "partial",
   "theorems": [
    "Spoc.Props.c55_self_partial",
    "Spoc.Props.c55_self_header",
    "Spoc.Props.c55_symmetric",
    "Spoc.Props.c55_transitive",
    "Spoc.Props.c55_fields_not_transitive",
    "Spoc.Props.c55_nan_differs"
   ],
   "note": "Symmetry holds always, reflexivity without NaN coordinates; a file with a NaN differs from itself (c55_nan_differs). Transitive for headers and data, not for a single extra field that one file lacks (c55_fields_not_transitive)."
  },
  {
   "property": "C56",
   "status": "partial",
   "theorems": [
    "Spoc.Props.c56_fields_partial",
    "Spoc.Props.c56_app_partial",
    "Spoc.Props.c56_unknown_partial",
    "Spoc.Props.c56_missing_ignored",
    "Spoc.Props.c56_unknown_unnoticed"
   ],
   "note": "Holds for fields that both files have and names before which nothing differs; otherwise false (c56_missing_ignored, c56_unknown_unnoticed)."
  },
  {
   "property": "C57",
   "status": "partial",
   "theorems": [
    "Spoc.Props.c57_histogram",
    "Spoc.Props.c57_labels_partial",
    "Spoc.Props.c57_c58_app",
    "Spoc.Props.c57_large_label"
   ],
   "note": "Counts and distinct labels for every file; labels are the class number for classes below 2^31. Full statement false: larger classes are labelled as negative numbers (c57_large_label)."
  },
  {
   "property": "C58",
   "status": "partial",
   "theorems": [
    "Spoc.Props.c58_names_partial",
    "Spoc.Props.c58_named",
    "Spoc.Props.c58_large_names",
    "Spoc.Props.c57_c58_app",
    "Spoc.Props.c58_wrong_name"
   ],
   "note": "Holds for classes below 2^31; the last nine classes are printed as unclassified (c58_large_names, c58_wrong_name)."
  },
  {
   "property": "C59",
   "status": "partial",
   "theorems": [
    "Spoc.Props.c59_json_partial",
    "Spoc.Props.c59_text_partial",
    "Spoc.Props.c59_printed_partial",
    "Spoc.Props.c59_nan_range",
    "Spoc.Props.c59_nan_undefined"
   ],
   "note": "For files without NaN coordinates; std::sort of doubles is any function that sorts. With NaN the values are wrong or undefined (c59_nan_range, c59_nan_undefined)."
  },
  {
   "property": "C60",
   "status": "partial",
   "theorems": [
    "Spoc.Props.c60_header_partial",
    "Spoc.Props.c60_fields_partial",
    "Spoc.Props.c60_classes_partial",
    "Spoc.Props.c60_metrics_partial",
    "Spoc.Props.c60_succeeds",
    "Spoc.Props.c60_class_and_id_missing",
    "Spoc.Props.c60_not_finite",
    "Spoc.Props.c60_quote_unreadable"
   ],
   "note": "Proved for header, coordinates, intensity, colours, extra fields, class counts and densities, with finite values and a spatial reference without quotes. Full statement false: the summaries of class and point id are printed as an unknown type for every file (c60_class_and_id_missing)."
  },
  {
   "property": "C61",
   "status": "partial",
   "theorems": [
    "Spoc.Props.c61_field_names_accepted",
    "Spoc.Props.c61_names_partial",
    "Spoc.Props.c61_trailing_text_accepted",
    "Spoc.Props.c61_large_index_rejected"
   ],
   "note": "Every field name is accepted and the index is right below 2^31; the accepted strings are characterised. Full statement false: text after the number is ignored (c61_trailing_text_accepted), numbers from 2^31 are rejected."
  },
  {
   "property": "C62",
   "status": "partial",
   "theorems": [
    "Spoc.Props.c62_set_srs_partial",
    "Spoc.Props.c62_long_srs_rejected"
   ],
   "note": "Without conditions for uncompressed files; under the conditions of C02 for compressed ones."
  },
  {
   "property": "C63",
   "status": "proved",
   "theorems": [
    "Spoc.Props.c63_noop_identity",
    "Spoc.Props.c63_noop_rejects_compressed"
   ],
   "note": ""
  },
  {
   "property": "C64",
   "status": "proved",
   "theorems": [
    "Spoc.Props.c64_rewrite_canonical"
   ],
   "note": ""
  },
  {
   "property": "C65",
   "status": "proved",
   "theorems": [
    "Spoc.Props.c65_filter_only_removes"
   ],
   "note": ""
  },
  {
   "property": "C66",
   "status": "partial",
   "theorems": [
    "Spoc.Props.c66_occupied_partial",
    "Spoc.Props.c66_extent_partial",
    "Spoc.Props.c66_flat"
   ],
   "note": "Needs a grid that fits 64-bit indexes. The extent density is infinite when all points have the same x (c66_flat)."
  },
  {
   "property": "C67",
   "status": "partial",
   "theorems": [
    "Spoc.Props.c67_forms_partial",
    "Spoc.Props.c67_same_effect_partial",
    "Spoc.Props.c67_seed_letter"
   ],
   "note": "All options of all applications except the letter of random-seed of transform, which the help text shows and the code rejects (c67_seed_letter)."
  },
  {
   "property": "C68",
   "status": "proved",
   "theorems": [
    "Spoc.Props.c68_any_order",
    "Spoc.Props.c68_end_of_options"
   ],
   "note": "POSIXLY_CORRECT is taken to be unset."
  },
  {
   "property": "C69",
   "status": "proved",
   "theorems": [
    "Spoc.Props.c69_wrong_option"
   ],
   "note": ""
  },
  {
   "property": "C70",
   "status": "partial",
   "theorems": [
    "Spoc.Props.c70_help_first",
    "Spoc.Props.c70_version_partial",
    "Spoc.Props.c70_help_text",
    "Spoc.Props.c70_shown_accepted_partial",
    "Spoc.Props.c70_diff_version",
    "Spoc.Props.c67_seed_letter"
   ],
   "note": "Help for all applications. --version fails in diff, which wants two file names first (c70_diff_version); transform shows a letter that it rejects (c67_seed_letter)."
  },
  {
   "property": "C71",
   "status": "partial",
   "theorems": [
    "Spoc.Props.c71_failure_keeps_files_partial",
    "Spoc.Props.c71_srs_truncates",
    "Spoc.Props.c71_transform_truncates"
   ],
   "note": "Proved for compress, decompress, filter, tool, merge, diff, info and srs with texts up to 65535 bytes. False for transform, which empties its output before it looks at the input, and for srs with longer texts."
  },
  {
   "property": "C72",
   "status": "partial",
   "theorems": [
    "Spoc.Props.c72_in_place_partial",
    "Spoc.Props.c72_transform_in_place"
   ],
   "note": "Proved for compress, decompress, filter, tool and srs. False for transform: it replaces every file by an empty cloud and reports success (c72_transform_in_place)."
  },
  {
   "property": "C73",
   "status": "proved",
   "theorems": [
    "Spoc.Props.c73_redirection"
   ],
   "note": "compress, decompress, filter, tool, transform and srs with --srs."
  },
  {
   "property": "C74",
   "status": "proved",
   "theorems": [
    "Spoc.Props.c74_text_report"
   ],
   "note": "The text of the summaries and classes is C57-C59; here the header lines, the density lines and the composition."
  },
  {
   "property": "C75",
   "status": "proved",
   "theorems": [
    "Spoc.Props.c75_filter_steps"
   ],
   "note": "For classes and seeds given as decimal numbers."
  },
  {
   "property": "C76",
   "status": "partial",
   "theorems": [
    "Spoc.Props.c76_compress_partial",
    "Spoc.Props.c76_decompress_partial",
    "Spoc.Props.c76_there_and_back_partial",
    "Spoc.Props.c76_filter_partial",
    "Spoc.Props.c76_srs_partial",
    "Spoc.Props.c76_show_srs",
    "Spoc.Props.c76_merge_partial",
    "Spoc.Props.c76_diff",
    "Spoc.Props.c76_info",
    "Spoc.Props.c76_tool",
    "Spoc.Props.c76_transform",
    "Spoc.Props.c76_upsample",
    "Spoc.Props.c76_tile",
    "Spoc.Props.c76_tile_partial",
    "Spoc.Props.c76_tile_merge",
    "Spoc.Props.c76_tile_merge_partial"
   ],
   "note": "The limits of C01 and C02 apply to what is written. c76_tile, c76_tile_merge: compressed or not, new names or existing ones with --force. transform for different names (see C72)."
  },
  {
   "property": "C77",
   "status": "partial",
   "theorems": [
    "Spoc.Props.c77_manual_partial",
    "Spoc.Props.c77_complete",
    "Spoc.Props.c77_tool_seed",
    "Spoc.Props.c77_metric_letter",
    "Spoc.Props.c77_remove_coords",
    "Spoc.Props.c77_info_example",
    "Spoc.Props.c67_seed_letter"
   ],
   "note": "Proved for all documented options but four entries of the manual that are wrong: the random seed of tool, the letter of metric-info of info, the missing argument of remove-coords of filter, the letter of random-seed of transform. An example in the manual of info is wrong as well (c77_info_example)."
  },
  {
   "property": "C78",
   "status": "proved",
   "theorems": [
    "Spoc.Props.c78_switches",
    "Spoc.Props.c78_same_report"
   ],
   "note": ""
  },
  {
   "property": "C79",
   "status": "proved",
   "theorems": [
    "Spoc.Props.c79_missing_input",
    "Spoc.Props.c79_unwritable_output",
    "Spoc.Props.c79_number_of_names"
   ],
   "note": "The output file of merge is standard output; the files of tile are C47 and C76."
  },
  {
   "property": "C80",
   "status": "partial",
   "theorems": [
    "Spoc.Props.c80_compress_partial",
    "Spoc.Props.c80_bad_level",
    "Spoc.Props.c80_decompress",
    "Spoc.Props.c80_roundtrip_partial",
    "Spoc.Props.c80_same_format",
    "Spoc.Props.c80_damage_reported",
    "Spoc.Props.c80_truncation_unnoticed",
    "Spoc.Props.c80_failed_stream_hangs"
   ],
   "note": "Lossless for readable streams of any length. Full statement false: a stream that was cut off is accepted (c80_truncation_unnoticed), and compressing a stream that has failed before never ends (c80_failed_stream_hangs). zlib is a machine that keeps the promises of Spec/Stream."
  },
  {
   "property": "C81",
   "status": "partial",
   "theorems": [
    "Spoc.Props.c81_average_partial",
    "Spoc.Props.c81_pipe_partial",
    "Spoc.Props.c81_rejects_compressed",
    "Spoc.Props.c81_end_unnoticed",
    "Spoc.Props.c81_wrong_mean"
   ],
   "note": "Averages up to rounding (explicit bound) while the points last. Full statement false: the end of the stream is never noticed and missing points are counted as points at the origin (c81_end_unnoticed, c81_wrong_mean)."
  },
  {
   "property": "C82",
   "status": "partial",
   "theorems": [
    "Spoc.Props.c82_write_read_partial",
    "Spoc.Props.c82_made_in_python_partial",
    "Spoc.Props.c82_cannot_open",
    "Spoc.Props.c82_failed_write_empties"
   ],
   "note": "Round trip for the files of C01 and C02 (at most 123 extra fields uncompressed, no hidden negative zero compressed). Full statement false as there, and a text that is too long is noticed only after the old file has been emptied (c82_failed_write_empties)."
  },
  {
   "property": "C83",
   "status": "partial",
   "theorems": [
    "Spoc.Props.c83_frame",
    "Spoc.Props.c83_exception",
    "Spoc.Props.c83_consistent",
    "Spoc.Props.c83_set_get",
    "Spoc.Props.c83_rejects",
    "Spoc.Props.c83_columns",
    "Spoc.Props.c83_attributes",
    "Spoc.Props.c83_safe_partial",
    "Spoc.Props.c83_append_lost",
    "Spoc.Props.c83_index_undefined",
    "Spoc.Props.c83_text_not_utf8"
   ],
   "note": "The last part holds for indices in range and readers that do not hang. Full statement false: an index behind the end terminates the interpreter or is undefined behaviour instead of raising IndexError (c83_index_undefined); r.extra.append is silently lost (c83_append_lost); bytes that are no UTF-8 are accepted as text but cannot be obtained again (c83_text_not_utf8)."
  },
  {
   "property": "C84",
   "status": "proved",
   "theorems": [
    "Spoc.Props.c84_write_succeeds",
    "Spoc.Props.c84_inconsistent_refused"
   ],
   "note": "Failures of the output stream itself are not modelled; that success does not always mean readability is C13 (more than 255 extra fields) and C02."
  },
  {
   "property": "C85",
   "status": "partial",
   "theorems": [
    "Spoc.Props.c85_five_partial",
    "Spoc.Props.c85_decompress",
    "Spoc.Props.c85_filter_partial",
    "Spoc.Props.c85_tool_partial",
    "Spoc.Props.c85_transform_partial",
    "Spoc.Props.c85_info_partial",
    "Spoc.Props.c85_info_safe_switches",
    "Spoc.Props.c85_tile_partial",
    "Spoc.Props.c85_filter_fits_partial",
    "Spoc.Props.c85_transform_fits_partial",
    "Spoc.Props.c85_tool_fits_partial",
    "Spoc.Props.c85_tile_fits_partial",
    "Spoc.Props.c85_endless",
    "Spoc.Props.c85_get_field_extra",
    "Spoc.Props.c85_empty_argument",
    "Spoc.Props.c85_subsample",
    "Spoc.Props.c85_info_nan",
    "Spoc.Props.c85_tile_empty",
    "Spoc.Props.c85_set_negative",
    "Spoc.Props.c85_quantize",
    "Spoc.Props.c85_tile_small",
    "Spoc.Props.c85_upsample_outside",
    "Spoc.Props.c85_upsample"
   ],
   "note": "Proved for decompress. Missing from the full statement, and false there: uncompressed files with more than 123 extra fields (c85_endless), the options subsample (c85_subsample), get-field with an extra field (c85_get_field_extra), empty arguments in the debug build (c85_empty_argument), densities of clouds with NaN (c85_info_nan), tile sizes with an empty cloud (c85_tile_empty), transform --set with numbers out of range (c85_set_negative), quantize-xyz (c85_quantize), tile sizes that are too small (c85_tile_small; C44 gives the numbers), upsample-classifications (c85_upsample, c85_upsample_outside). The theorems named _fits_ give conditions on arguments and inputs under which these options are safe after all (for quantize-xyz see c38_file_partial). Running out of memory is not modelled."
  },
  {
   "property": "C86",
   "status": "partial",
   "theorems": [
    "Spoc.Props.c86_center_partial",
    "Spoc.Props.c86_outside",
    "Spoc.Props.c86_overflow",
    "Spoc.Props.c86_empty"
   ],
   "note": "Proved up to the stated rounding error below the overflow bound. Exactness is false (c86_outside), also for overflowing sums (c86_overflow) and empty clouds (c86_empty)."
  },
  {
   "property": "C87",
   "status": "partial",
   "theorems": [
    "Spoc.Props.c87_writes",
    "Spoc.Props.c87_writes_record",
    "Spoc.Props.c87_size",
    "Spoc.Props.c87_reads_partial",
    "Spoc.Props.c87_writes_compressed",
    "Spoc.Props.c87_reads_compressed"
   ],
   "note": "Missing: uncompressed files with 124 to 255 extra fields are written as documented but never read (c01_hang). zlib is a parameter."
  },
  {
   "property": "C88",
   "status": "proved",
   "theorems": [
    "Spoc.Props.c88_decides",
    "Spoc.Props.c88_extra",
    "Spoc.Props.c88_costs_nothing",
    "Spoc.Props.c88_extra_undefined"
   ],
   "note": "An extra field that a record does not have is undefined behaviour (c88_extra_undefined)."
  },
  {
   "property": "C89",
   "status": "proved",
   "theorems": [
    "Spoc.Props.c89_transform",
    "Spoc.Props.c89_set",
    "Spoc.Props.c89_filter",
    "Spoc.Props.c89_tile_size",
    "Spoc.Props.c89_tile_sizes",
    "Spoc.Props.c89_tool",
    "Spoc.Props.c89_words_are_class_zero",
    "Spoc.Props.c89_wrapped_class",
    "Spoc.Props.c89_decimal_comma",
    "Spoc.Props.c89_subnormal_rejected",
    "Spoc.Props.c89_infinite_tile_size",
    "Spoc.Props.c89_tile_word"
   ],
   "note": "The claim is about well-formed numerals in range. Texts that are no numbers are not rejected: a word counts as class 0 (c89_words_are_class_zero) or as no tile size (c89_tile_word), class 2^32+2 is class 2 (c89_wrapped_class), 1,5 is 1 (c89_decimal_comma); 1e-310 is rejected by transform although there are doubles near it (c89_subnormal_rejected), and a tile size of 1e999 is infinite (c89_infinite_tile_size)."
  },
  {
   "property": "C90",
   "status": "proved",
   "theorems": [
    "Spoc.Props.c90_from_file",
    "Spoc.Props.c90_prefix",
    "Spoc.Props.c90_from_stdin",
    "Spoc.Props.c90_stdin_needs_prefix"
   ],
   "note": "The files with these names are those of C43 and C76."
  },
  {
   "property": "C91",
   "status": "partial",
   "theorems": [
    "Spoc.Props.c91_quiet",
    "Spoc.Props.c91_area_partial",
    "Spoc.Props.c91_no_area",
    "Spoc.Props.c91_empty_file",
    "Spoc.Props.c91_empty_file_example"
   ],
   "note": "False if a file is empty: its area is computed as infinite and hides every warning (c91_empty_file). Partial: the sum of the areas is 0 or at least 2^-100; files are not empty. The warning about different spatial reference systems is in C41."
  },
  {
   "property": "C92",
   "status": "proved",
   "theorems": [
    "Spoc.Props.c92_stops_or_same",
    "Spoc.Props.c92_same",
    "Spoc.Props.c92_filter",
    "Spoc.Props.c92_tile",
    "Spoc.Props.c92_read",
    "Spoc.Props.c92_write",
    "Spoc.Props.c92_library",
    "Spoc.Props.c92_differ"
   ],
   "note": "c92_differ: a resolution that is not a number gives an exception in the debug build and undefined behaviour in the release build. See also c85_get_field_extra and c85_empty_argument for asserts that can be reached."
  },
  {
   "property": "C93",
   "status": "proved",
   "theorems": [
    "Spoc.Props.c93_area",
    "Spoc.Props.c93_volume",
    "Spoc.Props.c93_more_points",
    "Spoc.Props.c93_flat",
    "Spoc.Props.c93_nothing"
   ],
   "note": "The bound on the magnitude excludes overflow of the product."
  },
  {
   "property": "C94",
   "status": "proved",
   "theorems": [
    "Spoc.Props.c94_uniform",
    "Spoc.Props.c94_gauss",
    "Spoc.Props.c94_engine",
    "Spoc.Props.c94_equal_seeds",
    "Spoc.Props.c94_different_seeds",
    "Spoc.Props.c94_seed_without_effect",
    "Spoc.Props.c94_separate_commands",
    "Spoc.Props.c94_infinite"
   ],
   "note": "c94_separate_commands is a finding: separate commands for x and y restart the engine with the same seed, so that each point gets the same offset in both coordinates (uniform and Gaussian noise). c94_infinite: with a magnitude of 2^1023 offsets are infinite. The logarithm in the Gaussian distribution is a parameter, assumed to be right up to 1/4 and not positive on (0, 1]."
  },
  {
   "property": "C95",
   "status": "proved",
   "theorems": [
    "Spoc.Props.c95_accepted_iff",
    "Spoc.Props.c95_rest_untouched",
    "Spoc.Props.c95_truncation_seen",
    "Spoc.Props.c95_truncation_of_written_seen",
    "Spoc.Props.c95_wrong_column_refused"
   ],
   "note": "Complements C07 and C87: the reader does not look at the state of the stream itself (c07_truncation_unnoticed), but the state tells."
  },
  {
   "property": "C96",
   "status": "partial",
   "theorems": [
    "Spoc.Props.c96_carry_partial",
    "Spoc.Props.c96_files_partial"
   ],
   "note": "Partial as C47: coordinates need at most 16 significant digits (c47_lossy shows that 17 are lost); both fields must be coordinates or neither."
  },
  {
   "property": "C97",
   "status": "proved",
   "theorems": [
    "Spoc.Props.c97_translate",
    "Spoc.Props.c97_scale",
    "Spoc.Props.c97_stays",
    "Spoc.Props.c97_quantize_undefined"
   ],
   "note": "The undefined behaviour of quantize is a finding (conversion of NaN or infinity to int)."
  },
  {
   "property": "C98",
   "status": "proved",
   "theorems": [
    "Spoc.Props.c98_subsample",
    "Spoc.Props.c98_filter"
   ],
   "note": "The rounding allowance is r 2^-51 + D 2^-50, where D is the length of the cloud along the axis. c98_filter is for uncompressed files with at most 123 extra fields (C01)."
  },
  {
   "property": "C99",
   "status": "partial",
   "theorems": [
    "Spoc.Props.c99_order_partial",
    "Spoc.Props.c99_without_summary_partial",
    "Spoc.Props.c99_tile_merge_partial",
    "Spoc.Props.c99_zero_signs"
   ],
   "note": "Partial because the full claim is false: with zeros of both signs in a coordinate the sign that the minimum is printed with depends on the order (c99_zero_signs), and sorting with NaN is undefined. The field summaries after tile and merge differ in the point ids, which merge assigns."
  },
  {
   "property": "C100",
   "status": "partial",
   "theorems": [
    "Spoc.Props.c100_same_bytes_partial",
    "Spoc.Props.c100_uncompressed",
    "Spoc.Props.c100_lossless",
    "Spoc.Props.c100_same_points_partial",
    "Spoc.Props.c100_ids_differ"
   ],
   "note": "Without conditions on what is written for uncompressed files (c100_uncompressed) and for compressed ones without negative zeros (c100_lossless); for other compressed ones the intermediate and the final file must survive writing (C02). Without a given id the bytes differ (c100_ids_differ)."
  },
  {
   "property": "C101",
   "status": "partial",
   "theorems": [
    "Spoc.Props.c101_translate_partial",
    "Spoc.Props.c101_scale_partial",
    "Spoc.Props.c101_lost",
    "Spoc.Props.c101_rounded",
    "Spoc.Props.c101_negative_zero",
    "Spoc.Props.c101_scale_rounded"
   ],
   "note": "Restoring exactly in general is false: c101_lost (1 moved by 1e300 and back is 0), c101_rounded (0.1 moved by a million and back), c101_negative_zero, c101_scale_rounded (3 scaled by 0.1 and 10). Proved: the bound of one unit in the last place of the shifted coordinate for coordinates up to 2^1000, and exactness on binary grids and for powers of two."
  },
  {
   "property": "C102",
   "status": "proved",
   "theorems": [
    "Spoc.Props.c102_any_order",
    "Spoc.Props.c102_options",
    "Spoc.Props.c102_replace_not",
    "Spoc.Props.c102_same_field"
   ],
   "note": "The fields that count are those that a command changes in fact: replace-not for p, i, r, g, b changes the class (finding; c102_replace_not gives two orders with different results although the commands name different fields). c102_same_field shows that the premise is needed."
  },
  {
   "property": "C103",
   "status": "partial",
   "theorems": [
    "Spoc.Props.c103_filter_merge_partial",
    "Spoc.Props.c103_uncompressed",
    "Spoc.Props.c103_lossless",
    "Spoc.Props.c103_negative_zero",
    "Spoc.Props.c103_unique",
    "Spoc.Props.c103_subsample"
   ],
   "note": "Without conditions on what is written for uncompressed files (c103_uncompressed) and for compressed ones without negative zeros (c103_lossless). For other compressed files the clouds have to survive a round trip; without that the claim is false (c103_negative_zero). False for --unique-xyz (c103_unique) and --subsample (c103_subsample), as stated."
  },
  {
   "property": "C104",
   "status": "proved",
   "theorems": [
    "Spoc.Props.c104_transform_merge",
    "Spoc.Props.c104_success",
    "Spoc.Props.c104_copy_id",
    "Spoc.Props.c104_set_id"
   ],
   "note": "For files as SPOC writes them, with at most 123 extra fields (others cannot be read, C01) and uncompressed (transform rejects others, C32). The premise about point ids is needed (c104_copy_id, c104_set_id)."
  },
  {
   "property": "C105",
   "status": "proved",
   "theorems": [
    "Spoc.Props.c105_filter_tool",
    "Spoc.Props.c105_srs",
    "Spoc.Props.c105_show_srs",
    "Spoc.Props.c105_merge",
    "Spoc.Props.c105_diff",
    "Spoc.Props.c105_diff_header",
    "Spoc.Props.c105_info",
    "Spoc.Props.c105_info_header",
    "Spoc.Props.c105_tile",
    "Spoc.Props.c105_transform"
   ],
   "note": "Two runs from the command line to the files that are left, for any options. For tile the names have to be new and writing the tiles has to succeed."
  },
  {
   "property": "C106",
   "status": "partial",
   "theorems": [
    "Spoc.Props.c106_filter_partial",
    "Spoc.Props.c106_filter_uncompressed",
    "Spoc.Props.c106_filter_lossless",
    "Spoc.Props.c106_srs_uncompressed",
    "Spoc.Props.c106_srs_lossless",
    "Spoc.Props.c106_srs_partial",
    "Spoc.Props.c106_tool_partial",
    "Spoc.Props.c106_transform_partial",
    "Spoc.Props.c106_subsample",
    "Spoc.Props.c106_seed",
    "Spoc.Props.c106_recenter",
    "Spoc.Props.c106_infinite",
    "Spoc.Props.c106_quantize",
    "Spoc.Props.c106_replace_order"
   ],
   "note": "The cases that are left out are false, with witnesses from the command line on. For filter and srs every uncompressed input that can be read is covered, and every compressed one without negative zeros (c106_filter_lossless, c106_srs_lossless); otherwise the result has to survive a round trip (C01, C02); replace-not is covered for the fields that it changes."
  },
  {
   "property": "C107",
   "status": "proved",
   "theorems": [
    "Spoc.Props.c107_set",
    "Spoc.Props.c107_set_whole",
    "Spoc.Props.c107_set_out_of_range",
    "Spoc.Props.c107_set_large",
    "Spoc.Props.c107_copy",
    "Spoc.Props.c107_copy_faithful",
    "Spoc.Props.c107_copy_loses"
   ],
   "note": "Not every number that the field can hold is stored, and copying can lose digits (c107_set_large, c107_set_out_of_range, c107_copy_loses)."
  },
  {
   "property": "C108",
   "status": "proved",
   "theorems": [
    "Spoc.Props.c108_same_request",
    "Spoc.Props.c108_merge_warnings",
    "Spoc.Props.c108_exchange",
    "Spoc.Props.c108_overridden",
    "Spoc.Props.c108_twice",
    "Spoc.Props.c108_one_command"
   ],
   "note": "help stops the reading of options (C70) and is therefore left out. That merge's --quiet given twice is not quiet is a finding."
  },
  {
   "property": "C109",
   "status": "partial",
   "theorems": [
    "Spoc.Props.c109_mutual_partial",
    "Spoc.Props.c109_all_mutual_partial",
    "Spoc.Props.c109_own_neighbour_partial",
    "Spoc.Props.c109_chance",
    "Spoc.Props.c109_smaller_maximum",
    "Spoc.Props.c109_cut_not_mutual"
   ],
   "note": "False for lists that the maximum cuts (c109_cut_not_mutual: with a maximum of 2 a point neither lists itself nor is listed by the points it lists). Voxel indexes of 2^31 - 2 and more are excluded, for which the search is undefined (C29)."
  },
  {
   "property": "C110",
   "status": "proved",
   "theorems": [
    "Spoc.Props.c110_filter_transform",
    "Spoc.Props.c110_same_field",
    "Spoc.Props.c110_replace_not"
   ],
   "note": "The fields that count are those that a command changes in fact: --replace-not for p, i, r, g, b changes the class (finding; c110_replace_not shows that it does not commute with keep-class). Noise commands are excluded: the noise depends on the place of a point in the file. Compressed clouds are refused by transform."
  },
  {
   "property": "C111",
   "status": "proved",
   "theorems": [
    "Spoc.Props.c111_subsample",
    "Spoc.Props.c111_filter",
    "Spoc.Props.c111_filter_lossless",
    "Spoc.Props.c111_tiles",
    "Spoc.Props.c111_finer_keeps_less",
    "Spoc.Props.c111_two_steps"
   ],
   "note": "The natural claim, that every smaller resolution keeps at least as many points, is false: c111_finer_keeps_less (resolution 1.75 keeps two of three points, 2 keeps all). Subsampling in two steps is not the same as subsampling at once: c111_two_steps."
  },
  {
   "property": "C112",
   "status": "proved",
   "theorems": [
    "Spoc.Props.c112_report",
    "Spoc.Props.c112_merge",
    "Spoc.Props.c112_filter",
    "Spoc.Props.c112_tile"
   ],
   "note": "ShowsCount speaks about the printed text: a line of the report that begins with the label of the class. The filter theorem is for uncompressed files; merge needs files with equally many extra fields (otherwise merge throws)."
  },
  {
   "property": "C113",
   "status": "proved",
   "theorems": [
    "Spoc.Props.c113_voxels",
    "Spoc.Props.c113_subsample",
    "Spoc.Props.c113_unique",
    "Spoc.Props.c113_search",
    "Spoc.Props.c113_tiles",
    "Spoc.Props.c113_filter",
    "Spoc.Props.c113_translate",
    "Spoc.Props.c113_rounded"
   ],
   "note": "The applications run on uncompressed clouds (transform refuses others). Without exactness the claim is false (c113_rounded: moved by 1e300, points come together that were apart)."
  },
  {
   "property": "C114",
   "status": "proved",
   "theorems": [
    "Spoc.Props.c114_subsample",
    "Spoc.Props.c114_unique",
    "Spoc.Props.c114_filter",
    "Spoc.Props.c114_condition"
   ],
   "note": "For every input that can be read. With a condition on a coordinate, which the statement leaves out, it would be false (c114_condition), because the condition looks at the points that happen to be kept."
  },
  {
   "property": "C115",
   "status": "partial",
   "theorems": [
    "Spoc.Props.c115_records",
    "Spoc.Props.c115_file",
    "Spoc.Props.c115_equal_seeds",
    "Spoc.Props.c115_different_seeds",
    "Spoc.Props.c115_integers",
    "Spoc.Props.c115_about_equal",
    "Spoc.Props.c115_about_equal_rejects",
    "Spoc.Props.c115_about_equal_undefined",
    "Spoc.Props.c115_points",
    "Spoc.Props.c115_points_unspecified",
    "Spoc.Props.c115_cloud",
    "Spoc.Props.c115_gauss_cloud",
    "Spoc.Props.c115_name",
    "Spoc.Props.c115_name_not_unique"
   ],
   "note": "The numbers are proved for all seeds. Several parts are false: seeds that are equal modulo 2147483647 give the same data (c115_equal_seeds) and about_equal rejects adjacent numbers and is undefined from 2147483.648 on (c115_about_equal_rejects, c115_about_equal_undefined); the points of generate_points depend on an unspecified order of evaluation (c115_points_unspecified); the 'unique' name repeats (c115_name_not_unique). log, cos and sin are parameters with bounds on their values. A file with 124 or more extra fields cannot be read back (C01)."
  },
  {
   "property": "C116",
   "status": "proved",
   "theorems": [
    "Spoc.Props.c116_extent",
    "Spoc.Props.c116_voxels",
    "Spoc.Props.c116_subsample",
    "Spoc.Props.c116_subsampled_points",
    "Spoc.Props.c116_unique",
    "Spoc.Props.c116_center",
    "Spoc.Props.c116_crop",
    "Spoc.Props.c116_quantize",
    "Spoc.Props.c116_tiles",
    "Spoc.Props.c116_tile_size",
    "Spoc.Props.c116_search_prefers_an_axis"
   ],
   "note": "The exception is proved by a witness (c116_search_prefers_an_axis). The equal tile size is proved for clouds that measure at most 2^28 in x and y."
  },
  {
   "property": "C117",
   "status": "proved",
   "theorems": [
    "Spoc.Props.c117_voxels",
    "Spoc.Props.c117_subsample",
    "Spoc.Props.c117_unique",
    "Spoc.Props.c117_extent",
    "Spoc.Props.c117_tiles",
    "Spoc.Props.c117_number_of_tiles",
    "Spoc.Props.c117_search",
    "Spoc.Props.c117_decimal"
   ],
   "note": "The three exceptions are proved by witnesses (c117_decimal for the applications filter and transform, c117_number_of_tiles, c117_search)."
  },
  {
   "property": "C118",
   "status": "proved",
   "theorems": [
    "Spoc.Props.c118_pipeline",
    "Spoc.Props.c118_swap",
    "Spoc.Props.c118_keep_twice",
    "Spoc.Props.c118_two_conditions",
    "Spoc.Props.c118_unique_first"
   ],
   "note": "c118_keep_twice, c118_two_conditions and c118_unique_first show that the premise on the order of the steps is needed: classes to keep and conditions do not accumulate in the same way over a pipeline as within one run."
  },
  {
   "property": "C119",
   "status": "proved",
   "theorems": [
    "Spoc.Props.c119_filter",
    "Spoc.Props.c119_unique",
    "Spoc.Props.c119_transform",
    "Spoc.Props.c119_subsample"
   ],
   "note": "Uncompressed clouds, as the statement says. c119_subsample is the limit, on three points."
  },
  {
   "property": "C120",
   "status": "proved",
   "theorems": [
    "Spoc.Props.c120_agree",
    "Spoc.Props.c120_one_by_one",
    "Spoc.Props.c120_all_at_once",
    "Spoc.Props.c120_moved",
    "Spoc.Props.c120_consistent",
    "Spoc.Props.c120_push_back",
    "Spoc.Props.c120_program",
    "Spoc.Props.c120_main",
    "Spoc.Props.c120_status",
    "Spoc.Props.c120_more_fields",
    "Spoc.Props.c120_refused"
   ],
   "note": "c120_more_fields and c120_refused are the concrete cases in which the three ways differ."
  },
  {
   "property": "C121",
   "status": "partial",
   "theorems": [
    "Spoc.Props.c121_elapsed",
    "Spoc.Props.c121_stands",
    "Spoc.Props.c121_accurate_partial",
    "Spoc.Props.c121_set_back"
   ],
   "note": "The last sentence is false: the clock is system_clock, which can be set back, and then the time is negative (c121_set_back). c121_accurate_partial is for readings that never decrease and intervals below 2^53 ms."
  },
  {
   "property": "C122",
   "status": "proved",
   "theorems": [
    "Spoc.Props.c122_uncompressed",
    "Spoc.Props.c122_compressed",
    "Spoc.Props.c122_program",
    "Spoc.Props.c122_main",
    "Spoc.Props.c122_refused",
    "Spoc.Props.c122_unreadable"
   ],
   "note": "zlib is assumed to be correct (Zlib.Correct) and its output for the columns to fit 32-bit sizes, as in C02."
  },
  {
   "property": "C123",
   "status": "partial",
   "theorems": [
    "Spoc.Props.c123_rgb",
    "Spoc.Props.c123_elevation_partial",
    "Spoc.Props.c123_class",
    "Spoc.Props.c123_shared",
    "Spoc.Props.c123_segment",
    "Spoc.Props.c123_colours",
    "Spoc.Props.c123_size_partial",
    "Spoc.Props.c123_flat",
    "Spoc.Props.c123_empty",
    "Spoc.Props.c123_reload",
    "Spoc.Props.c123_failed_choice"
   ],
   "note": "Two sentences are false: a flat or empty cloud has no colors by elevation (c123_flat, c123_empty; c123_elevation_partial is for finite elevations up to 2^997 that are not all the same), and after loading the page again the points keep the old size (c123_reload; c123_size_partial is for sessions without that)."
  },
  {
   "property": "C124",
   "status": "proved",
   "theorems": [
    "Spoc.Props.c124_verbose",
    "Spoc.Props.c124_prepend_long",
    "Spoc.Props.c124_prepend_letter",
    "Spoc.Props.c124_outcome",
    "Spoc.Props.c124_silent",
    "Spoc.Props.c124_warnings",
    "Spoc.Props.c124_merge_log",
    "Spoc.Props.c124_named"
   ],
   "note": "Messages that getopt_long and assert print themselves are not modelled: the claim about silence is for options that are known."
  },
  {
   "property": "C125",
   "status": "partial",
   "theorems": [
    "Spoc.Props.c125_diff_partial",
    "Spoc.Props.c125_diff_reversed",
    "Spoc.Props.c125_upsample_partial",
    "Spoc.Props.c125_subsampled",
    "Spoc.Props.c125_five_of_four",
    "Spoc.Props.c125_two_of_two",
    "Spoc.Props.c125_merge_warnings",
    "Spoc.Props.c125_merge"
   ],
   "note": "False with --reverse, where diff says the opposite of the truth (c125_diff_reversed), and for upsampling if low-resolution points share a voxel (c125_five_of_four, c125_two_of_two); c125_diff_partial is for comparisons without --reverse, c125_upsample_partial for low-resolution points in different voxels, which subsampling guarantees (c125_subsampled)."
  },
  {
   "property": "C126",
   "status": "partial",
   "theorems": [
    "Spoc.Props.c126_again",
    "Spoc.Props.c126_two_clouds",
    "Spoc.Props.c126_fields",
    "Spoc.Props.c126_itself",
    "Spoc.Props.c126_order",
    "Spoc.Props.c126_points_order",
    "Spoc.Props.c126_order_matters",
    "Spoc.Props.c126_itself_changes",
    "Spoc.Props.c126_files_again",
    "Spoc.Props.c126_files_two",
    "Spoc.Props.c126_files_merged"
   ],
   "note": "The last sentence is false if points in one voxel have different classes: the last one wins (c126_order_matters, c126_itself_changes); c126_itself and c126_order hold if points in the same voxel have the same class, and the order of the high-resolution points never matters if the coordinates are finite (c126_points_order). The other sentences hold without restriction, for the function and from files to files."
  },
  {
   "property": "C127",
   "status": "proved",
   "theorems": [
    "Spoc.Props.c127_reads",
    "Spoc.Props.c127_messages",
    "Spoc.Props.c127_writes",
    "Spoc.Props.c127_kept",
    "Spoc.Props.c127_inputs"
   ],
   "note": "Different names are different files (no links). The names of tiles are described by Spec.Named.TileOf: the prefix or a part of the name of the input without a slash, decimal digits, an extension."
  },
  {
   "property": "C128",
   "status": "proved",
   "theorems": [
    "Spoc.Props.c128_undisturbed",
    "Spoc.Props.c128_two",
    "Spoc.Props.c128_any_order",
    "Spoc.Props.c128_as_alone",
    "Spoc.Props.c128_messages"
   ],
   "note": "One run after the other; runs at the same time are not modelled. Whether runs are independent is decided by their command lines (C127)."
  },
  {
   "property": "C129",
   "status": "proved",
   "theorems": [
    "Spoc.Props.c129_filter_tool",
    "Spoc.Props.c129_upsample",
    "Spoc.Props.c129_transform",
    "Spoc.Props.c129_merge",
    "Spoc.Props.c129_tile",
    "Spoc.Props.c129_diff",
    "Spoc.Props.c129_info",
    "Spoc.Props.c129_srs_filter"
   ],
   "note": "The messages of merge do depend on the spatial references (C125). transform: uncompressed clouds and successful runs with different names of input and output. tile: new names, writing succeeds."
  },
  {
   "property": "C130",
   "status": "partial",
   "theorems": [
    "Spoc.Props.c130_filter_partial",
    "Spoc.Props.c130_tool_partial",
    "Spoc.Props.c130_transform_partial",
    "Spoc.Props.c130_tile_partial",
    "Spoc.Props.c130_merge",
    "Spoc.Props.c130_recenter",
    "Spoc.Props.c130_zero_signs",
    "Spoc.Props.c130_unique",
    "Spoc.Props.c130_subsample",
    "Spoc.Props.c130_noise"
   ],
   "note": "The full statement is false of the code; the other commands are excluded by the witnesses c130_recenter (mean of 2^53, 1, 1), c130_zero_signs, c130_unique, c130_subsample and c130_noise. How many points --unique-xyz and --subsample keep does not depend on the order (C114). Upsampling classes: C126; info: C99. tile: finite coordinates, new names. set-field assigns by position by design."
  },
  {
   "property": "C131",
   "status": "proved",
   "theorems": [
    "Spoc.Props.c131_filter",
    "Spoc.Props.c131_tool",
    "Spoc.Props.c131_upsample",
    "Spoc.Props.c131_get_field",
    "Spoc.Props.c131_transform",
    "Spoc.Props.c131_tile"
   ],
   "note": "Two runs are compared, with an arbitrary relation between the points (for c131_tool, c131_tile and c131_filter), so that nothing beside the named fields can have an influence. transform may fail for one cloud and not for the other, since the number of extra fields decides whether a field exists; c131_transform is about successful runs. Tiles have new names and are such that they can be written (C01, C02)."
  },
  {
   "property": "C132",
   "status": "proved",
   "theorems": [
    "Spoc.Props.c132_transform",
    "Spoc.Props.c132_resize",
    "Spoc.Props.c132_srs",
    "Spoc.Props.c132_moved"
   ],
   "note": "The tiles have new names (with existing ones, tile asks for --force, C46). c132_moved shows that commands that change x or y have to be excluded. Compressed clouds are refused by transform (C40); for the other tools see C105."
  },
  {
   "property": "C133",
   "status": "partial",
   "theorems": [
    "Spoc.Props.c133_larger_partial",
    "Spoc.Props.c133_count_partial",
    "Spoc.Props.c133_grid_partial",
    "Spoc.Props.c133_lost"
   ],
   "note": "Proved for all radii if coordinates and radii are multiples of a power of two and the coordinates differ by less than 2^24 of them (c133_grid_partial), and for all coordinates if the smaller radius is at most 1 - 2^-18 times the larger one and the voxel indexes at the larger radius are below 2^31 - 2 (C29). Full statement false: c133_lost gives two neighbouring floating point numbers near 1.8 and a cloud of three points for which the smaller radius finds the neighbour and the larger one does not."
  },
  {
   "property": "C134",
   "status": "proved",
   "theorems": [
    "Spoc.Props.c134_unique",
    "Spoc.Props.c134_subsample",
    "Spoc.Props.c134_steps",
    "Spoc.Props.c134_filter",
    "Spoc.Props.c134_itself",
    "Spoc.Props.c134_seed",
    "Spoc.Props.c134_nan"
   ],
   "note": "With a random seed another of the points at a place may be kept (c134_seed); a point with a coordinate that is not a number is at no place and is kept every time (c134_nan). Only the number of points that are kept is treated for seeds in C114."
  },
  {
   "property": "C135",
   "status": "partial",
   "theorems": [
    "Spoc.Props.c135_shown",
    "Spoc.Props.c135_ends",
    "Spoc.Props.c135_stops",
    "Spoc.Props.c135_timings",
    "Spoc.Props.c135_bytes_partial",
    "Spoc.Props.c135_not_utf8",
    "Spoc.Props.c135_bytes"
   ],
   "note": "The full statement is false: the number that is called a number of bytes is a number of characters (c135_bytes); it is right exactly for ASCII texts (c135_bytes_partial). Everything else is proved for all files."
  },
  {
   "property": "C136",
   "status": "partial",
   "theorems": [
    "Spoc.Props.c136_filter",
    "Spoc.Props.c136_tool",
    "Spoc.Props.c136_tool_succeeds",
    "Spoc.Props.c136_tool_makes",
    "Spoc.Props.c136_transform",
    "Spoc.Props.c136_merge",
    "Spoc.Props.c136_tile",
    "Spoc.Props.c136_info",
    "Spoc.Props.c136_tile_undefined",
    "Spoc.Props.c136_density",
    "Spoc.Props.c136_upsample"
   ],
   "note": "The full statement is false: tile with a size in x above zero is undefined behaviour (c136_tile_undefined, for every size), transferring classes to a cloud without points is undefined behaviour (c136_upsample), and two of the densities that info shows are not numbers (c136_density). Everything else is proved."
  },
  {
   "property": "C137",
   "status": "partial",
   "theorems": [
    "Spoc.Props.c137_column_partial",
    "Spoc.Props.c137_tiles_partial",
    "Spoc.Props.c137_narrow_partial",
    "Spoc.Props.c137_again_partial",
    "Spoc.Props.c137_app_partial",
    "Spoc.Props.c137_voxels_partial",
    "Spoc.Props.c137_width",
    "Spoc.Props.c137_at_most_four",
    "Spoc.Props.c137_cut_again",
    "Spoc.Props.c137_column_false"
   ],
   "note": "The full statement is false because of rounding (c137_column_false, c137_cut_again). It is proved exactly for coordinates and sizes that are multiples of any power of two, up to 2^52 of them (for instance integers, or multiples of 1/1024). For all finite coordinates the points of a tile are at most the tile size and its 2^-18 part apart (c137_width), and a tile that is cut again falls into at most four (c137_at_most_four). c137_app_partial is about files that are not compressed."
  },
  {
   "property": "C138",
   "status": "partial",
   "theorems": [
    "Spoc.Props.c138_subsample_partial",
    "Spoc.Props.c138_tiles_partial",
    "Spoc.Props.c138_filter_partial",
    "Spoc.Props.c138_rounding"
   ],
   "note": "The full statement is false because of rounding (c138_rounding). It is proved for coordinates and resolutions that are multiples of any power of two, up to 2^52 of them (for instance integers); C111 has the powers of two for all finite coordinates. c138_filter_partial is about files that are not compressed, whose records have at most 123 extra fields."
  },
  {
   "property": "C139",
   "status": "partial",
   "theorems": [
    "Spoc.Props.c139_exact_partial",
    "Spoc.Props.c139_all_partial",
    "Spoc.Props.c139_beyond"
   ],
   "note": "The full statement is false because of rounding: c139_beyond lists a point beyond the radius, c28_not_reported misses one within it. It is proved exactly, including the rim, for coordinates and radii that are multiples of a power of two (from 2^-537 to 2^485), coordinates below 2^52 of them and less than 2^24 of them apart (for instance millimetres stored as multiples of 1/1024 m in a cloud of 16 km). No condition on voxel indexes is needed then."
  },
  {
   "property": "C140",
   "status": "partial",
   "theorems": [
    "Spoc.Props.c140_near_partial",
    "Spoc.Props.c140_twice",
    "Spoc.Props.c140_grid_partial",
    "Spoc.Props.c140_app",
    "Spoc.Props.c140_border"
   ],
   "note": "within one resolution if no low-resolution point is below the high-resolution cloud (exactly, on a grid; up to rounding otherwise), within two resolutions always; the full statement is false: c140_border, since get_voxel_index truncates towards zero"
  },
  {
   "property": "C141",
   "status": "partial",
   "theorems": [
    "Spoc.Props.c141_center_partial",
    "Spoc.Props.c141_order_partial",
    "Spoc.Props.c141_tool_partial",
    "Spoc.Props.c141_order",
    "Spoc.Props.c86_outside"
   ],
   "note": "for coordinates that are multiples of a power of two and so small that no sum needs more than 53 bits (for example 8 million points with coordinates of 30 bits); the full statement is false of the code: c141_order (2^53, 1, 1), c86_outside (three points at 0.1), c130_recenter for the application"
  },
  {
   "property": "C142",
   "status": "partial",
   "theorems": [
    "Spoc.Props.c142_moved_partial",
    "Spoc.Props.c142_groups_partial",
    "Spoc.Props.c142_voxels",
    "Spoc.Props.c142_tool_partial",
    "Spoc.Props.c142_filter_partial",
    "Spoc.Props.c142_ties"
   ],
   "note": "voxels and subsampling in full for finite coordinates (c142_voxels); the rest for coordinates that are multiples of a power of two, below 2^52 of them; the applications for uncompressed files. The full statement is false of the code: c142_ties (0 and 1/2 beside -2^60 come together)"
  },
  {
   "property": "C143",
   "status": "partial",
   "theorems": [
    "Spoc.Props.c143_quantize_partial",
    "Spoc.Props.c143_difference_partial",
    "Spoc.Props.c143_transform_partial",
    "Spoc.Props.c143_then_origin_partial",
    "Spoc.Props.c143_tenth"
   ],
   "note": "for steps that are powers of two, coordinates below 2^31 steps, and uncompressed files. The full statement is false of the code: c143_tenth (with steps of 0.1, the points 0.3 and 0.4 are moved to 0 and something below 0.1, which the next quantising moves to 0)"
  },
  {
   "property": "C144",
   "status": "partial",
   "theorems": [
    "Spoc.Props.c144_cubes_partial",
    "Spoc.Props.c144_count_partial",
    "Spoc.Props.c144_filter_partial",
    "Spoc.Props.c144_shared"
   ],
   "note": "for coordinates and resolutions that are multiples of a power of two, below 2^52 of them; the application for uncompressed files and for compressed ones without negative zeros. The full statement is false of the code: c144_shared (of 0, 190 and 192 with resolution 6.4, all are kept, although 190 and 192 are in the same cube). Up to rounding, for all finite coordinates: C98"
  },
  {
   "property": "C145",
   "status": "partial",
   "theorems": [
    "Spoc.Props.c145_back",
    "Spoc.Props.c145_files_partial",
    "Spoc.Props.c145_smaller"
   ],
   "note": "c145_back is the full statement for clouds in memory; the statement for files is for uncompressed files and for compressed ones without negative zeros (a compressed file can lose the sign of a zero, C02). c145_smaller: with a smaller resolution for the transfer, points are left without a class"
  },
  {
   "property": "C146",
   "status": "proved",
   "theorems": [
    "Spoc.Props.c146_hex",
    "Spoc.Props.c146_every",
    "Spoc.Props.c146_infinity",
    "Spoc.Props.c146_nan",
    "Spoc.Props.c146_transform",
    "Spoc.Props.c146_transform_infinity"
   ],
   "note": "strtod is modelled after its specification (C locale, correctly rounded); std::stod reports numbers as out of range if they overflow, or underflow and are not exact"
  },
  {
   "property": "C147",
   "status": "partial",
   "theorems": [
    "Spoc.Props.c147_undone_partial",
    "Spoc.Props.c147_numerals_partial",
    "Spoc.Props.c147_lost"
   ],
   "note": "The full statement, for all finite coordinates, is false: c147_lost shows that of -2^53 and 1/2 the second becomes 0. Missing from the positive part: coordinates that are on no common grid, and compressed files, which spoc_transform does not read"
  },
  {
   "property": "C148",
   "status": "partial",
   "theorems": [
    "Spoc.Props.c148_one",
    "Spoc.Props.c148_filter",
    "Spoc.Props.c148_all_partial",
    "Spoc.Props.c148_rounded",
    "Spoc.Props.c148_merged"
   ],
   "note": "The first part is proved for the library for all finite clouds; c148_rounded shows that a double between extent and resolution is needed. The second part is proved on a grid and false in general: c148_merged shows points as far apart as the resolution of which one is dropped. The application for uncompressed files and for compressed ones without negative zeros (C149)"
  },
  {
   "property": "C149",
   "status": "proved",
   "theorems": [
    "Spoc.Props.c149_filter",
    "Spoc.Props.c149_move",
    "Spoc.Props.c149_tiles",
    "Spoc.Props.c149_sum",
    "Spoc.Props.c149_scale"
   ],
   "note": "c149_scale: scaling with -1 does make negative zeros, so this is not claimed for all applications. zlib is a parameter (assumed to invert)"
  },
  {
   "property": "C150",
   "status": "proved",
   "theorems": [
    "Spoc.Props.c150_columns",
    "Spoc.Props.c150_read",
    "Spoc.Props.c150_written"
   ],
   "note": "the printed doubles have 16 digits, so reading the text again may lose the last bit (C47). Both programs use the same zlib"
  }
 ]
}