{"id": "C01", "title": "Uncompressed write/read round trip", "statement": "Writing a point-cloud file without compression and reading the bytes back yields exactly the file that was written: same WKT, same compression flag, same number of records in the same order, every coordinate bit for bit, every integer field and every extra field; the reader stops exactly behind the last byte it wrote.", "quantifier": "for every file value whose version is the current one, whose WKT fits the 16-bit length, for every number of points, every number of extra fields up to 255 and every bit pattern in every field", "why_tests_cant": "Tests write a handful of clouds with at most a few extra fields; the number of points and extra fields interacts with a 1024-byte read buffer and only a proof covers every combination.", "anchors": ["spoc/io.h: write_spoc_file_uncompressed, read_spoc_file_uncompressed, read_uncompressed_points", "spoc/point_record.h: write_point_record", "spoc/header.h: write_header, read_header"]}
{"id": "C02", "title": "Compressed write/read round trip", "statement": "Writing a file with compression and reading it back yields exactly the file that was written, bit for bit, whichever columns are all zero and therefore stored as empty.", "quantifier": "for every compressed file value with current version, WKT of at most 65535 bytes, at most 255 extra fields, every number of points whose columns are below 4 GiB, and every bit pattern", "why_tests_cant": "A test samples a few random clouds; columns mixing special values (signed zeros, NaNs) with the all-zero shortcut are not sampled.", "anchors": ["spoc/io.h: write_spoc_file_compressed, read_compressed_points, compress_field, all_zero, write_compressed, read_compressed", "spoc/compression.h: compress, decompress"]}
{"id": "C03", "title": "Compress and decompress applications are mutually inverse", "statement": "Running the compress application on an uncompressed file and the decompress application on the result gives back the same cloud (same WKT, same points in the same order); the compress application accepts exactly the uncompressed files and sets only the compression flag.", "quantifier": "for every readable file", "why_tests_cant": "Requires composing four serialisation steps over all inputs.", "anchors": ["apps/compress/compress.cpp: main", "apps/decompress/decompress.cpp: main", "apps/compress/compress.h", "apps/decompress/decompress.h"]}
{"id": "C04", "title": "Header round trip", "statement": "A header that is written and read back is unchanged, and reading it consumes exactly the bytes that were written, whatever follows in the stream.", "quantifier": "for every header with the current version and a WKT of at most 65535 bytes, every value of the other fields and every continuation of the stream", "why_tests_cant": "WKT content and length, 64-bit counts and trailing data form an unbounded space.", "anchors": ["spoc/header.h: write_header, read_header"]}
{"id": "C05", "title": "An over-long WKT is refused, never truncated", "statement": "A file whose WKT does not fit into the 16-bit length field is rejected with an exception before any byte is emitted; a header or file that is written is never written with a truncated WKT length.", "quantifier": "for every file and every header value, every WKT length", "why_tests_cant": "Tests try one over-long string through one entry point; headers are mutable structures that reach the writer by several routes.", "anchors": ["spoc/header.h: header::header, write_header", "spoc/file.h: get_header, set_wkt", "spoc/io.h: write_spoc_file"]}
{"id": "C06", "title": "Files can be concatenated in one stream", "statement": "Several files written one after another to one stream are read back one after another, each equal to what was written.", "quantifier": "for every list of writable files, compressed or not", "why_tests_cant": "Needs an induction over the list of files and the exact number of bytes each read consumes.", "anchors": ["spoc/io.h: read_spoc_file, write_spoc_file"]}
{"id": "C07", "title": "Truncated input is detected", "statement": "Reading a file whose bytes were cut off anywhere before the end raises an exception instead of returning points that were never in the file.", "quantifier": "for every writable file and every strict prefix of its bytes", "why_tests_cant": "There are as many truncation points as bytes; tests check none of them.", "anchors": ["spoc/header.h: read_header", "spoc/io.h: read_uncompressed_points, read_compressed", "spoc/point_record.h: read_point_record"]}
{"id": "C08", "title": "Foreign data is rejected", "statement": "A stream that does not start with the four signature bytes, or that carries another major or minor version, is rejected with an exception by every reader. Likewise each of the two writers refuses the files of the other one without writing anything.", "quantifier": "for every byte stream of at least six bytes", "why_tests_cant": "The set of foreign streams is unbounded.", "anchors": ["spoc/header.h: read_header, check_signature", "spoc/io.h: read_spoc_file, read_spoc_file_uncompressed, read_spoc_file_compressed"]}
{"id": "C09", "title": "Whatever the bytes, a returned file is consistent and no buffer is overrun", "statement": "If a reader returns a file at all, the file has exactly the announced number of points and each of them has exactly the announced number of extra fields; while reading, no access outside the staging buffer or the record vector happens.", "quantifier": "for every byte stream, including truncated and malicious ones", "why_tests_cant": "Quantifies over all inputs, in particular over hostile ones.", "anchors": ["spoc/io.h: read_uncompressed_points, read_compressed_points", "spoc/file.h: spoc_file::spoc_file"]}
{"id": "C10", "title": "Chunked compression loses no byte", "statement": "Compressing a byte vector and decompressing the result gives the byte vector back, for every input size and every size of the compressed stream, including sizes that are exact multiples of the internal buffer.", "quantifier": "for every byte vector, given a correct codec", "why_tests_cant": "The interesting sizes are multiples of a 1 MiB buffer and sizes above 4 GiB, which tests do not reach.", "anchors": ["spoc/compression.h: compress, decompress"]}
{"id": "C11", "title": "A file object always stays consistent", "statement": "After any sequence of operations on a file object every point record has the same number of extra fields, and an operation that fails with an exception leaves the object unchanged.", "quantifier": "for every finite history of constructor, push, set, replace-all, resize, move, swap, assign and flag operations with arbitrary arguments", "why_tests_cant": "The history is unbounded.", "anchors": ["spoc/file.h: spoc_file (all public members)"]}
{"id": "C12", "title": "File operations act like a list of records", "statement": "Each operation on a file object has exactly its documented effect on the sequence of records and on WKT / compression flag, and no other: push appends one record, set replaces one record, resize pads with zeros or cuts every record and keeps the rest, setting WKT or the flag touches no record, cloning keeps the metadata and no record.", "quantifier": "for every file object and every argument", "why_tests_cant": "Needs frame conditions over all states.", "anchors": ["spoc/file.h: push_back, set_point_record, set_point_records, resize_extra_fields, clone_empty, set_wkt, set_compressed"]}
{"id": "C13", "title": "The generated header describes the file", "statement": "The header generated for a file reports exactly its number of points, its number of extra fields, its WKT and its compression flag.", "quantifier": "for every file object with a WKT of at most 65535 bytes", "why_tests_cant": "The extra-field count passes through an 8-bit field; tests only use small counts.", "anchors": ["spoc/file.h: get_header", "spoc/header.h: header::header"]}
{"id": "C14", "title": "Equality and hashing of records agree", "statement": "Two records that compare equal have equal hashes, inequality is exactly the negation of equality, equality is symmetric and transitive, and it is reflexive on records without NaN. Two extents are equal exactly if their corners are, two headers exactly if they are the same.", "quantifier": "for every pair (triple) of records and of points, and every standard hash for the field types that respects equality", "why_tests_cant": "Pairs of 64-bit patterns with signed zeros and NaNs cannot be enumerated.", "anchors": ["spoc/point_record.h: operator==, operator!=, point_record_hash", "spoc/point.h: point_hash, operator==", "spoc/utils.h: hash_combine", "spoc/header.h: operator==, operator!="]}
{"id": "C15", "title": "Extent is the tight bounding box", "statement": "The extent of a non-empty cloud bounds every point in each dimension, and each of its six faces is attained by some point.", "quantifier": "for every non-empty cloud of any size with any double coordinates", "why_tests_cant": "Any-size quantification, NaN and infinity corner cases depending on the order of the points.", "anchors": ["spoc/extent.h: get_extent"]}
{"id": "C16", "title": "Extents combine like unions", "statement": "The total extent of two extents is the extent of the concatenated clouds, for empty clouds too; it does not depend on the order of the points or of the two clouds.", "quantifier": "for every pair of clouds with finite coordinates and every permutation", "why_tests_cant": "Algebraic law over all pairs of clouds.", "anchors": ["spoc/extent.h: get_total_extent, get_extent"]}
{"id": "C17", "title": "Parallel loops are schedule independent", "statement": "Every OpenMP loop of the library gives the result of the sequential loop, whatever the number of threads and the interleaving of the individual memory operations of the iterations.", "quantifier": "for every cloud, every schedule and every interleaving of the loop bodies' reads and writes", "why_tests_cant": "Schedules are not controllable from a test and their number is factorial.", "anchors": ["spoc/affine.h", "spoc/utils.h: quantize", "spoc/voxel.h: get_voxel_indexes", "spoc/io.h: read_compressed_points, write_spoc_file_compressed", "spoc/radius_search.h"]}
{"id": "C18", "title": "Cropping keeps exactly the points inside", "statement": "Cropping a cloud to a box returns, in the original order, exactly the points that lie in the closed box; cropping twice is the same as cropping once, and cropping a cloud to its own extent changes nothing.", "quantifier": "for every cloud and every box", "why_tests_cant": "Universally quantified over clouds and boxes, including NaN coordinates.", "anchors": ["spoc/utils.h: crop", "spoc/extent.h: get_extent"]}
{"id": "C19", "title": "Point ordering is a strict weak order", "statement": "The less-than operator on points is irreflexive, asymmetric, transitive, and incomparability is transitive and coincides with equality, so points can be sorted and used as map keys.", "quantifier": "for all triples of points with non-NaN coordinates", "why_tests_cant": "Order axioms quantify over all triples.", "anchors": ["spoc/point.h: operator<, operator=="]}
{"id": "C20", "title": "Point and extent byte encodings are exact", "statement": "Decoding an encoded point, point vector or extent returns it bit for bit.", "quantifier": "for every point, every vector of points and every extent", "why_tests_cant": "All bit patterns, any length.", "anchors": ["spoc/point.h: encode_point, decode_point, encode_points, decode_points, append_double, bytes_to_double", "spoc/extent.h: encode_extent, decode_extent"]}
{"id": "C21", "title": "Rescaling to 62-bit integers is well defined and reversible up to one step", "statement": "Rescaling a cloud into the integer grid of its extent is well defined (no out-of-range conversion) and restoring gives back each coordinate up to one grid step.", "quantifier": "for every cloud and its own extent", "why_tests_cant": "Degenerate (flat) extents and extreme magnitudes are not covered by tests.", "anchors": ["spoc/extent.h: rescale, restore, max_value"]}
{"id": "C22", "title": "Voxel indexes of a cloud are always well defined", "statement": "Computing the voxel index of each point of a finite cloud relative to the cloud's own minimum never converts a negative or oversized value to an unsigned index as long as the extent divided by the resolution stays below 2^64, the index is monotone in each coordinate, and the minimum point has index 0.", "quantifier": "for every finite cloud, every positive resolution", "why_tests_cant": "The conversion is undefined behaviour outside its range, so the claim is about every rounding of every subtraction and division.", "anchors": ["spoc/voxel.h: get_voxel_index, get_voxel_indexes", "spoc/extent.h: get_extent"]}
{"id": "C23", "title": "Subsampling keeps exactly one point per occupied voxel", "statement": "The subsampled cloud contains exactly one of the original points for each occupied voxel: no two kept points share a voxel, every input point shares its voxel with a kept point, and nothing but input points is returned.", "quantifier": "for every cloud, resolution and random seed (every shuffle)", "why_tests_cant": "All clouds and all permutations of the visiting order.", "anchors": ["spoc/subsampling.h: get_subsample_indexes, subsample_points", "apps/filter/filter.h: subsample"]}
{"id": "C24", "title": "Unseeded subsampling is stable", "statement": "With random seed 0 the kept point of a voxel is the first one in file order, and the kept points stay in file order.", "quantifier": "for every cloud and resolution", "why_tests_cant": "Order claims over all clouds.", "anchors": ["spoc/subsampling.h: get_subsample_indexes", "apps/filter/filter.h: subsample"]}
{"id": "C25", "title": "Subsampling twice changes nothing", "statement": "Subsampling an already subsampled cloud at the same resolution returns it unchanged.", "quantifier": "for every cloud and resolution with seed 0", "why_tests_cant": "An algebraic law over all clouds; a test on a regular grid would not expose shifts of the grid origin.", "anchors": ["spoc/subsampling.h: get_subsample_indexes", "spoc/voxel.h: get_voxel_indexes"]}
{"id": "C26", "title": "Removing duplicate locations", "statement": "The unique-xyz filter keeps exactly one record for each location: no two kept records have equal x, y and z, every input record has a kept record with the same location, with seed 0 it is the first one, and applying the filter twice is the same as applying it once.", "quantifier": "for every cloud and seed", "why_tests_cant": "All clouds, including signed zeros and NaN.", "anchors": ["spoc/subsampling.h: get_unique_xyz_indexes", "apps/filter/filter.h: unique_xyz", "spoc/point.h: point_hash"]}
{"id": "C27", "title": "Radius search is sound", "statement": "Every neighbour reported for a point is the index of an existing candidate whose computed distance is at most the radius, no neighbour is reported twice, and never more than the requested maximum are reported.", "quantifier": "for all clouds, all radii, all maximum counts and all random sequences", "why_tests_cant": "The selection is randomised; the claim is over all random sequences.", "anchors": ["spoc/radius_search.h: get_neighbors, random_neighbor_selector"]}
{"id": "C28", "title": "Radius search is complete", "statement": "If fewer than the maximum number of neighbours are reported for a point, then every candidate within the radius of the point has been reported.", "quantifier": "for all clouds, all radii", "why_tests_cant": "The 27-voxel argument depends on the rounding of index computations for every coordinate.", "anchors": ["spoc/radius_search.h: get_neighbors, random_neighbor_selector", "spoc/voxel.h: get_voxel_index"]}
{"id": "C29", "title": "Random neighbour selection enumerates each candidate once and stays in bounds", "statement": "As long as points are left, drawing a random neighbour returns a valid candidate that has not been drawn before, reads no index outside its tables, and after exactly as many draws as there are candidates in the 27 voxels every candidate has been drawn exactly once.", "quantifier": "for every voxel map, every centre voxel, every sequence of random numbers", "why_tests_cant": "All random sequences.", "anchors": ["spoc/radius_search.h: random_neighbor_selector::get_random_neighbor"]}
{"id": "C30", "title": "Random neighbour selection is uniform", "statement": "Each remaining candidate is equally likely to be the next draw: a voxel is chosen by exactly as many values of the random index as it holds remaining points.", "quantifier": "for every voxel map and every state of the selector", "why_tests_cant": "Statistical tests cannot decide an exact count.", "anchors": ["spoc/radius_search.h: random_neighbor_selector::get_random_neighbor"]}
{"id": "C31", "title": "A transform command touches only the field it names", "statement": "Applying a transform command to a record changes no other field than the one the command names (x, y, z for the geometric commands).", "quantifier": "for every command, every argument and every record", "why_tests_cant": "Frame condition over all records and commands; tests check a few values of the affected field.", "anchors": ["apps/transform/transform.h: get_add_op, get_set_op, get_scale_op, get_replace_op, get_replace_not_op, get_copy_op, get_quantize_op, get_rotate_*_op"]}
{"id": "C32", "title": "Transform preserves header, order and number of points", "statement": "The transform application copies the header unchanged and writes exactly one transformed record per input record in input order; without commands the output is byte for byte the input.", "quantifier": "for every well-formed uncompressed file and every command list that does not fail", "why_tests_cant": "Streams of any length.", "anchors": ["apps/transform/transform.h: apply", "apps/transform/transform.cpp: main"]}
{"id": "C33", "title": "Replace and replace-not do what they say", "statement": "replace sets the named field to the new value in exactly the records where the field has one of the old values, replace-not in exactly the records where it has none of them; every other record is unchanged.", "quantifier": "for every field, every list of values that fit the field and every record", "why_tests_cant": "All value lists and all records.", "anchors": ["apps/transform/transform.h: get_replace_op, get_replace_not_op"]}
{"id": "C34", "title": "Transform commands compose left to right", "statement": "Giving several commands in one invocation has the same effect as running the application several times with one command each, in the order of the command line.", "quantifier": "for every list of commands and every file", "why_tests_cant": "All command lists.", "anchors": ["apps/transform/transform.h: apply", "apps/transform/transform_cmd.h: get_args"]}
{"id": "C35", "title": "Every documented transform option is accepted", "statement": "Every option listed in the help text and the option table of the transform application is dispatched to its command rather than rejected.", "quantifier": "for every option of the table and every argument string", "why_tests_cant": "Tests call the operators directly and not the option parser.", "anchors": ["apps/transform/transform_cmd.h: get_args, args"]}
{"id": "C36", "title": "Library and application geometry agree", "statement": "The in-memory functions for adding offsets, scaling and rotating compute for every point exactly what the streaming transform commands compute.", "quantifier": "for every cloud and every argument", "why_tests_cant": "Bit-exact agreement over all doubles.", "anchors": ["spoc/affine.h", "apps/transform/transform.h: get_add_op, get_scale_op, get_rotate_x_op, get_rotate_y_op, get_rotate_z_op"]}
{"id": "C37", "title": "Rotations are rigid", "statement": "A rotation keeps the coordinate along its axis and the distance of the point to the axis, preserves distances between points, and rotating back by the negative angle restores the point (up to rounding).", "quantifier": "for every point and angle", "why_tests_cant": "Real-number identities over all points and angles.", "anchors": ["spoc/affine.h: rotate_x, rotate_y, rotate_z"]}
{"id": "C38", "title": "Quantisation is safe, accurate and idempotent", "statement": "Quantising coordinates to a precision is well defined, moves no coordinate by a full precision step or more, moves it towards zero, and quantising again changes nothing.", "quantifier": "for every finite coordinate and every positive precision", "why_tests_cant": "The narrowing to a 32-bit integer and the rounding of division and multiplication matter for coordinates tests do not use (for example UTM northings in millimetres).", "anchors": ["spoc/utils.h: quantize", "apps/transform/transform.h: get_quantize_op"]}
{"id": "C39", "title": "Keeping and removing classes partition the cloud", "statement": "keep-class returns exactly the points whose class is listed, remove-class exactly the others, both in file order with WKT and flags unchanged; together they contain every point exactly once.", "quantifier": "for every file and every list of classes", "why_tests_cant": "All files and class lists.", "anchors": ["apps/filter/filter.h: keep_classes, remove_classes"]}
{"id": "C40", "title": "Coordinate filter", "statement": "remove-coords with an axis, a relation and a number removes exactly the points whose coordinate stands in that relation to the number; a malformed expression is rejected with an exception.", "quantifier": "for every file and every expression string", "why_tests_cant": "All strings and all coordinates.", "anchors": ["apps/filter/filter.h: remove_coords, split_string"]}
{"id": "C41", "title": "Merging loses no point", "statement": "Merging files writes the points of all inputs, in command-line order and within each file in file order, unchanged except for the point id, which identifies the input file (or is the one given by the user).", "quantifier": "for every list of at least two files with the same number of extra fields", "why_tests_cant": "Lists of any length.", "anchors": ["apps/merge/merge.h: append, set_point_ids", "apps/merge/merge.cpp: main"]}
{"id": "C42", "title": "Merging is all or nothing per file", "statement": "If the numbers of extra fields differ, appending a file fails and leaves the accumulated points unchanged; the result is compressed exactly if every input is compressed and carries the spatial reference of the first input; a warning is emitted exactly if a later spatial reference differs.", "quantifier": "for every list of files", "why_tests_cant": "Lists of any length and failure positions.", "anchors": ["apps/merge/merge.h: append", "apps/merge/merge.cpp: main"]}
{"id": "C43", "title": "Tiles partition the cloud", "statement": "Every input point is written to exactly one tile, every tile is non-empty, within a tile the points keep file order, and WKT and compression flag are those of the input.", "quantifier": "for every file and tile size for which tile numbers are defined", "why_tests_cant": "All files; set-partition property.", "anchors": ["apps/tile/tile.h: get_tile_indexes, get_tile_map", "apps/tile/tile.cpp: main"]}
{"id": "C44", "title": "Tile numbers identify grid cells", "statement": "Two points get the same tile number exactly if they fall into the same column and the same row of the tile grid.", "quantifier": "for every cloud with finite coordinates and every positive tile size with fewer than 2^32 columns and rows", "why_tests_cant": "The column count is computed by rounding independently of the column numbers, so the claim depends on rounding for all doubles.", "anchors": ["apps/tile/tile.h: get_tile_indexes"]}
{"id": "C45", "title": "Requested number of tiles is respected", "statement": "When a number n of tiles along the longest side is requested, no more than n columns and n rows result.", "quantifier": "for every cloud and every n of at least 1", "why_tests_cant": "An epsilon is added to absorb rounding; only a proof can tell for which magnitudes it does.", "anchors": ["apps/tile/tile.h: get_tile_size, get_tile_indexes"]}
{"id": "C46", "title": "Tiling never overwrites without force", "statement": "Different tiles get different file names, and without the force option no file that existed before is modified.", "quantifier": "for every file system state, prefix, digit count and set of tiles", "why_tests_cant": "All file-system states.", "anchors": ["apps/tile/tile.cpp: main"]}
{"id": "C47", "title": "Field export and import are inverse", "statement": "Exporting a field as text with get-field and importing the text with set-field into the same file restores the file.", "quantifier": "for every file and every field", "why_tests_cant": "All 64-bit values pass through decimal text.", "anchors": ["apps/tool/tool.h: get_field, set_field"]}
{"id": "C48", "title": "Field import is checked", "statement": "set-field sets exactly the named field to the values in the text, in order, creates missing extra fields filled with zeros, changes nothing else, and rejects a text that does not contain one number per point.", "quantifier": "for every file, every field and every text", "why_tests_cant": "All texts.", "anchors": ["apps/tool/tool.h: set_field"]}
{"id": "C49", "title": "Changing the number of extra fields", "statement": "resize-extra keeps the leading extra fields, fills new ones with zero, and changes nothing else; growing and shrinking back restores the file.", "quantifier": "for every file and size", "why_tests_cant": "All sizes and files.", "anchors": ["apps/tool/tool.h: resize_extra", "spoc/file.h: resize_extra_fields"]}
{"id": "C50", "title": "Subtract-min moves the minimum to the origin", "statement": "After subtract-min the smallest x and y (and z if requested) are exactly zero, no coordinate is negative, the order of coordinates is preserved and all other fields are unchanged.", "quantifier": "for every non-empty file with finite coordinates", "why_tests_cant": "Every rounding of every subtraction.", "anchors": ["apps/tool/tool.h: subtract_min"]}
{"id": "C51", "title": "Recenter moves the mean to the origin", "statement": "After recenter the mean of x and y (and z if requested) is zero, all points are shifted by the same offset and all other fields are unchanged.", "quantifier": "for every non-empty file", "why_tests_cant": "All clouds.", "anchors": ["apps/tool/tool.h: recenter"]}
{"id": "C52", "title": "Upsampling transfers classes by voxel", "statement": "Upsampling gives each high-resolution point the class of the low-resolution point in its voxel (the last one if there are several), leaves points in voxels without low-resolution point unchanged, and changes nothing but the class.", "quantifier": "for every pair of files for which the voxel indexes are defined, and every resolution", "why_tests_cant": "All pairs of clouds.", "anchors": ["apps/tool/tool.h: upsample_classifications"]}
{"id": "C53", "title": "Subsample then upsample labels every point", "statement": "If the low-resolution file was obtained from the high-resolution file by subsampling at the same resolution and then re-classified, upsampling assigns every high-resolution point the class of its voxel's representative.", "quantifier": "for every file, resolution, seed and re-classification", "why_tests_cant": "End-to-end property over all clouds and shuffles.", "anchors": ["apps/tool/tool.h: upsample_classifications", "spoc/subsampling.h: get_subsample_indexes"]}
{"id": "C54", "title": "Diff decides equality", "statement": "The full diff of two files reports success exactly if the files have equal headers and equal records; the header-only and data-only variants decide equality of that part; the reverse option exactly inverts the exit status.", "quantifier": "for every pair of files", "why_tests_cant": "All pairs.", "anchors": ["apps/diff/diff.h: diff", "apps/diff/diff.cpp: main"]}
{"id": "C55", "title": "A file never differs from itself", "statement": "Comparing a file with itself reports no difference, the result of a comparison does not depend on the order of the two files, and files that do not differ from the same file do not differ from each other.", "quantifier": "for every file (pair)", "why_tests_cant": "Special floating-point values.", "anchors": ["apps/diff/diff.h: diff"]}
{"id": "C56", "title": "Field diff decides equality of the named fields", "statement": "The fields variant of diff reports success exactly if each named field is equal in both files, and rejects unknown field names.", "quantifier": "for every pair of files and every field string", "why_tests_cant": "All pairs of files with different numbers of extra fields.", "anchors": ["apps/diff/diff.h: diff"]}
{"id": "C57", "title": "Class histogram is exact", "statement": "The class histogram reported by the info application counts each class with the exact number of points that carry it, the counts add up to the number of points, and each class appears once.", "quantifier": "for every file", "why_tests_cant": "Sums over any number of points and any class values.", "anchors": ["apps/info/info.h: get_class_count_map and class count output"]}
{"id": "C58", "title": "Class names are right", "statement": "The name printed for a class is the ASPRS name of that class number, and every class number from 0 to 255 has a name.", "quantifier": "for every 32-bit class value", "why_tests_cant": "All class values.", "anchors": ["apps/info/info.h", "spoc/asprs.h"]}
{"id": "C59", "title": "Field summaries are ordered statistics", "statement": "The reported minimum, quartiles and maximum of a field are values of the field, are in non-decreasing order, the first and last are the true minimum and maximum, and no index is out of range.", "quantifier": "for every file with at least one point", "why_tests_cant": "Any size and content.", "anchors": ["apps/info/info.h: get_summary_object"]}
{"id": "C60", "title": "JSON output contains the values", "statement": "Every number the info application reports is present as a number in its JSON output.", "quantifier": "for every field type the application summarises", "why_tests_cant": "Depends on a type dispatch over all field types.", "anchors": ["spoc/json.h", "apps/info/info.h"]}
{"id": "C61", "title": "Field names are parsed strictly", "statement": "A field name is accepted exactly if it is one of x, y, z, c, p, i, r, g, b or e followed by a decimal number, and then the extra index is that number.", "quantifier": "for every string", "why_tests_cant": "All strings.", "anchors": ["spoc/app_utils.h: check_field_name, is_extra_field, get_extra_index, consume_field_name"]}
{"id": "C62", "title": "Setting the spatial reference changes only the WKT", "statement": "The srs application replaces the WKT and leaves every record, their order and the compression flag unchanged.", "quantifier": "for every file and every new WKT of at most 65535 bytes", "why_tests_cant": "All files.", "anchors": ["apps/srs/srs.cpp: main", "apps/srs/srs.h"]}
{"id": "C63", "title": "Streaming copy is the identity", "statement": "Reading header and records one by one from a well-formed uncompressed stream and writing them again reproduces the input bytes.", "quantifier": "for every well-formed uncompressed file", "why_tests_cant": "Streams of any length.", "anchors": ["examples/noop.cpp", "spoc/point_record.h: read_point_record, write_point_record", "spoc/header.h: read_header, write_header"]}
{"id": "C64", "title": "Rewriting a file is canonical", "statement": "Reading a file and writing it again produces bytes that read back as the same file, and reading and writing again reproduces those bytes exactly.", "quantifier": "for every byte stream that is readable, for uncompressed files", "why_tests_cant": "All byte streams, including non-canonical flag bytes.", "anchors": ["spoc/io.h: read_spoc_file, write_spoc_file"]}
{"id": "C65", "title": "Filtering only removes points", "statement": "Whatever combination of filter options is given, when the filter application succeeds every point of its output is a point of its input, none occurs more often than there, no field of a point is changed, and version, WKT and compression flag are those of the input.", "quantifier": "for every input, every list of options and every random seed", "why_tests_cant": "All combinations of options, all inputs and all random orders.", "anchors": ["apps/filter/filter.cpp: main", "apps/filter/filter.h"]}
{"id": "C66", "title": "Reported densities", "statement": "The densities the info application reports are the number of points divided by the area of the bounding rectangle, by the number of unit squares that contain a point, and by the number of unit cubes that contain a point; each is the correctly rounded quotient, and the last two lie between one and the number of points.", "quantifier": "for every file with at least one point and finite coordinates", "why_tests_cant": "All clouds; cells are counted through hashed sets and the quotients are rounded.", "anchors": ["apps/info/info.h: get_metric_values", "spoc/voxel.h"]}
{"id": "C67", "title": "All ways to write an option mean the same", "statement": "An option may be written with its full name, with an unambiguous beginning of it, or with its letter; its argument in the same word or in the next; letters of options without argument in one word.  All of these have the same effect, in every application.", "quantifier": "for every application, every command line made of such forms and every state of the file system", "why_tests_cant": "All combinations of forms and arguments.", "anchors": ["apps/*/*_cmd.h: get_args", "apps/*/*.md"]}
{"id": "C68", "title": "Options and file names in any order", "statement": "Options may come before, between or after file names; every word after -- is a file name even if it begins with a dash.", "quantifier": "for every application and every command line", "why_tests_cant": "All orders and all words.", "anchors": ["apps/*/*_cmd.h: get_args"]}
{"id": "C69", "title": "A wrong option is an error", "statement": "An option that does not exist, an ambiguous abbreviation, an argument for an option that takes none and a missing argument are errors: the application fails, prints nothing to its standard output and changes no file.", "quantifier": "for every application, every wrong option and every command line around it without --help before it", "why_tests_cant": "All command lines.", "anchors": ["apps/*/*_cmd.h: get_args", "apps/*/*.cpp: main"]}
{"id": "C70", "title": "Help and version do nothing else", "statement": "With --help an application succeeds and touches nothing; with --version it prints the version and touches nothing; the help text shows exactly the options that exist, and what it shows is accepted.", "quantifier": "for every application and, for help, whatever follows on the command line", "why_tests_cant": "All command lines; a relation between option table, short options, switch and help text.", "anchors": ["apps/*/*_cmd.h: get_args", "spoc/cmd.h: print_help", "apps/*/*.cpp: main"]}
{"id": "C71", "title": "Failure leaves the files alone", "statement": "When an application that writes one output fails, no file has changed: the output file is neither created nor emptied nor half written.", "quantifier": "for every application, every command line and every state of the file system", "why_tests_cant": "All ways to fail, with all inputs.", "anchors": ["apps/*/*.cpp: main", "spoc/app_utils.h: input_stream, output_stream"]}
{"id": "C72", "title": "Input and output may be the same file", "statement": "With the same name for input and output the file ends up with what would have been written to another file, and the outcome is the same.", "quantifier": "for every application with an input and an output file, all options and all contents", "why_tests_cant": "All inputs and options; depends on the order in which files are opened, read and written.", "anchors": ["apps/*/*.cpp: main", "spoc/app_utils.h: input_stream, output_stream"]}
{"id": "C73", "title": "File names and redirection are interchangeable", "statement": "Naming an input and an output file has the same outcome and writes the same bytes as reading the input from the standard input and writing to the standard output.", "quantifier": "for every application with an input and an output file, all options, all contents and two different names", "why_tests_cant": "All inputs and options.", "anchors": ["apps/*/*.cpp: main", "spoc/app_utils.h: input_stream, output_stream"]}
{"id": "C74", "title": "The text report of the info application", "statement": "Without --json the info application prints the parts that are switched on and no others, in a fixed order: the header part shows version, spatial reference, number of points and compression of the file; the last part shows the three densities with 15 decimals.", "quantifier": "for every cloud and all combinations of switches", "why_tests_cant": "All clouds and combinations; printed numbers must be the nearest decimals.", "anchors": ["apps/info/info.h: print_header, print_metrics", "apps/info/info.cpp: main"]}
{"id": "C75", "title": "Filter options act in a fixed order", "statement": "With several options the filter application keeps the asked classes, then removes the asked classes, then removes duplicates, then subsamples, then removes by coordinate, whatever the order of the options; classes accumulate, of several seeds, resolutions or conditions the last counts, and the seed governs both random steps.  If a step is impossible nothing is written and the application fails.", "quantifier": "for every cloud, every list of options, every shuffle", "why_tests_cant": "All combinations and orders of options with all clouds and seeds.", "anchors": ["apps/filter/filter.cpp: main", "apps/filter/filter_cmd.h: get_args", "apps/filter/filter.h"]}
{"id": "C76", "title": "What the applications do to files", "statement": "Started with the names of files that contain clouds, every application leaves in its output file (or on its standard output) exactly the cloud, text or report that the properties above describe, and leaves all other files alone; in particular compressing and decompressing a file gives the same cloud, and splitting a file into tiles and merging them gives the same points.", "quantifier": "for every application, all command lines of the stated form, all states of the file system and all clouds within the limits of the format", "why_tests_cant": "All files and command lines; a relation between parser, file system and algorithms, across several program runs.", "anchors": ["apps/*/*.cpp: main", "apps/*/*_cmd.h: get_args", "spoc/app_utils.h: input_stream, output_stream"]}
{"id": "C77", "title": "The manual pages are right about the options", "statement": "Every option that a manual page documents is understood in the documented forms, with the documented argument, wherever it stands on the command line; every option that exists is documented.", "quantifier": "for every application, every documented option, every argument and every command line around it", "why_tests_cant": "All command lines; a relation between documentation, option table and parser.", "anchors": ["apps/*/*.1.md", "apps/*/*_cmd.h: get_args"]}
{"id": "C78", "title": "The switches of the info application toggle", "statement": "A switch of the info application is in its default state exactly if its option was given an even number of times; so the order of the options does not matter.", "quantifier": "for every list of switches, every file and every order", "why_tests_cant": "All lists of options.", "anchors": ["apps/info/info_cmd.h: get_args"]}
{"id": "C79", "title": "Files that cannot be opened and wrong numbers of file names are errors", "statement": "If any of the files that an application must read does not exist or must not be read, wherever it stands on the command line, or the output file cannot be written, or the number of file names is not one that the usage line allows, the application reports an error and no file is changed.", "quantifier": "for every application, all command lines without --help and --version, all states of the file system", "why_tests_cant": "All command lines and file systems; applications with many inputs could ignore one.", "anchors": ["apps/*/*.cpp: main", "apps/*/*_cmd.h: get_args", "spoc/app_utils.h: input_stream, output_stream"]}
{"id": "C80", "title": "Compression of streams is lossless", "statement": "compress (is, os, level) writes a complete zlib stream with exactly the bytes of the input stream, for every level from -1 to 9 and data of any length; decompress (is, os) writes exactly those bytes again, and rejects a damaged or incomplete stream. Other levels are rejected. Both end for every input.", "quantifier": "for all byte sequences of any length, all levels, all ways in which zlib may split its input and output, whatever follows the compressed stream", "why_tests_cant": "All lengths, including those beyond 4 GiB and those at which zlib fills the buffer exactly; all behaviours that the interface of zlib allows.", "anchors": ["spoc/compression.h: compress (std::istream &, std::ostream &, int)", "spoc/compression.h: decompress (std::istream &, std::ostream &)"]}
{"id": "C81", "title": "The streaming examples compute running averages", "statement": "stream_averaging prints, whenever a line is due, the number of points read so far and the averages of their coordinates; connected to generate_infinite_points it prints the averages of the points generated, whenever the generator is interrupted. It rejects compressed files and stops with an error when the stream ends too early.", "quantifier": "for all streams, numbers of points and extra fields, all random sequences and times at which lines are due", "why_tests_cant": "All streams and lengths; floating-point error over long sums; an endless producer.", "anchors": ["examples/stream_averaging.cpp: main", "examples/generate_infinite_points.cpp: main"]}
{"id": "C82", "title": "Files written and read from Python", "statement": "A cloud made in Python from a text, a compression flag and records, written with writespocfile and read with readspocfile, by this or another program, has the same text, flag and records; readheader tells what the file holds. Files that cannot be opened raise an exception and nothing changes; other files are never touched.", "quantifier": "for all texts, flags, record lists, file names, file systems and states of the two programs", "why_tests_cant": "All clouds and texts; the reading program is a different process with a different build.", "anchors": ["spocpy/spocpy/spocpy.cpp: py_readheader, py_readspocfile, py_writespocfile"]}
{"id": "C83", "title": "Python objects have value semantics and stay consistent", "statement": "Whatever calls a Python program makes, the records of each SpocFile agree in the number of extra fields; a call changes only the object it is made on (records obtained from or put into a file are copies); a call that raises an exception changes no object; what was set is obtained again; attributes take exactly the values of their types; every call returns or raises an exception.", "quantifier": "for all sequences of calls, all objects, indices, texts and values", "why_tests_cant": "Unbounded sequences of calls and aliasing between objects.", "anchors": ["spocpy/spocpy/spocpy.cpp: PYBIND11_MODULE", "spoc/file.h: spoc_file"]}
{"id": "C84", "title": "Every consistent file can be written", "statement": "Writing a file whose records agree in the number of extra fields succeeds exactly if its text fits into the header; otherwise an exception is thrown before anything is written. A file whose records disagree is refused by a debug build before anything is written. The writer never hangs and has no undefined behaviour on consistent files.", "quantifier": "for all files (any number of records and extra fields), both formats and build types, any zlib", "why_tests_cant": "All files of any size; absence of undefined behaviour.", "anchors": ["spoc/io.h: write_spoc_file, write_spoc_file_uncompressed, write_spoc_file_compressed"]}
{"id": "C85", "title": "No file makes an application misbehave", "statement": "Whatever bytes the input files and the standard input contain, and whatever the command line says, an application ends with an exit code or with an exception that is reported; there is no undefined behaviour, no failed assertion and no endless loop. For decompress this holds without exception. For compress, diff, merge and srs the only exception is an endless loop on uncompressed files whose points have more than 123 extra fields. For filter, tool, transform, info and tile it holds outside of listed options and coordinates.", "quantifier": "for all command lines (any list of words), all contents of all files and of the standard input, both builds (release for transform and tile), any zlib, any lawful shuffle and sort", "why_tests_cant": "All byte strings as input and all command lines; absence of undefined behaviour and termination.", "anchors": ["apps/*/*.cpp: main", "spoc/io.h: read_spoc_file", "apps/tool/tool.h", "apps/transform/transform.h", "apps/info/info.h", "apps/tile/tile.h"]}
{"id": "C86", "title": "The center of a cloud is its mean", "statement": "get_center returns, in each coordinate, the arithmetic mean of the points: with n points of magnitude at most B it is finite and differs from the exact mean by at most (n + 2) * B / 2^53 plus the smallest positive double. (It need not lie within the extent of the cloud: three points at x = 0.1 have a center to the right of all of them; if the sum overflows the center is infinite, and the center of no points is not a number.)", "quantifier": "for all non-empty clouds (of points or of point records) of fewer than 2^53 points with finite coordinates of magnitude at most B, where n * B <= 2^998", "why_tests_cant": "All clouds of all sizes and all doubles; an error bound for sequential summation in floating point.", "anchors": ["spoc/utils.h: get_center"]}
{"id": "C87", "title": "Files have the documented layout", "statement": "An uncompressed file consists of exactly the bytes that the tables of the README prescribe: the identifier SPOC, the version 0.1, the length of the spatial reference and its bytes, the number of extra fields, the number of points and the flag 0, followed by the records in order, each with x, y, z, class, point id, intensity, red, green, blue and the extra fields, all little endian; its size is 18 + length of the text + points * (40 + 8 * extra fields). Conversely bytes of that layout, whoever wrote them, are read as the cloud that they describe. A compressed file has the same header with the flag 1, followed by the columns in the order of the fields, each as its length and a zlib stream of the values, or as length zero if all values are zero; files that another program has compressed in this layout are read as the cloud that they describe.", "quantifier": "for all clouds within the limits of the format (at most 123 extra fields for reading uncompressed files), all spatial references up to 65535 bytes, any trailing bytes, any zlib", "why_tests_cant": "Round trips only show that writer and reader agree with each other; exchange with other programs needs the layout itself, for all clouds.", "anchors": ["README.md: File format", "spoc/header.h: write_header, read_header", "spoc/point_record.h: write_point_record", "spoc/io.h: read_spoc_file, write_spoc_file"]}
{"id": "C88", "title": "Columns without information are recognised", "statement": "The functions has_all_zero_c, _p, _i, _r, _g, _b, _rgb and _extra are true exactly if the field is zero in every record (so also for an empty cloud); and a compressed file spends only the eight bytes of a length on a field exactly if the function is true for it (for coordinates: if they are all zero, of either sign). The extra field must exist in the records that are looked at.", "quantifier": "for all clouds; for has_all_zero_extra all extra fields that every record has; any correct zlib", "why_tests_cant": "All clouds; agreement of two independent implementations (library test and writer).", "anchors": ["spoc/point_record.h: has_all_zero_*", "spoc/io.h: all_zero, compress_field, write_compressed"]}
{"id": "C89", "title": "Numbers on the command line mean what they say", "statement": "A number given to an application as text (sign, digits, decimal point, exponent) is used as a double that is nearest to the number that is written: by all commands of transform with one number, set of a coordinate, subsample and remove-coords of filter, the tile sizes of tile (in both directions), and the resolution of tool; classes, seeds and numbers of tiles are the integers that are written.", "quantifier": "for all decimal numerals of any length whose value is zero or at least 2^-1022 in absolute value and at most the largest double (resolutions and sizes: positive); all clouds and files; integers in the range of their type", "why_tests_cant": "The texts are unbounded, and the nearest double is defined against all doubles.", "anchors": ["spoc/app_utils.h: consume_double", "apps/transform/transform.h: apply", "apps/filter/filter_cmd.h: get_args", "apps/filter/filter.h: remove_coords", "apps/tile/tile_cmd.h: get_args", "apps/tile/tile.cpp: main", "apps/tool/tool.cpp: main"]}
{"id": "C90", "title": "Tiles have the documented names", "statement": "The name of a tile is the prefix, or the base name of the input file (without directory) if no prefix is given, followed by the number of the tile in decimal digits, padded with zeros to the number of digits asked for (default 3) and never cut off, followed by the extension of the input file; for standard input the extension is .zpoc if the cloud is compressed and .spoc if not. Standard input without a prefix is refused and no file is changed.", "quantifier": "for all options, prefixes, directories, base names (which may contain dots), extensions, numbers of digits below 2^31, tile numbers and clouds", "why_tests_cant": "All paths and all tile numbers.", "anchors": ["apps/tile/tile.cpp: main", "apps/tile/tile_cmd.h: get_args", "apps/tile/tile.1.md"]}
{"id": "C91", "title": "merge warns if the files do not belong together", "statement": "Without the option quiet, merge writes a warning if the area of the bounding box of the merged cloud (seen from above) is more than 100 times the sum of the areas of the bounding boxes of the files, and none if it is less; in exact real arithmetic, up to a relative deviation of (n + 16) / 2^51 for n files. For files without area there is a warning exactly if the merged cloud has one. With the option quiet no warnings are written.", "quantifier": "for all numbers of non-empty files with the same number of extra fields and coordinates up to 2^400 in size, all orders, contents and point ids", "why_tests_cant": "The computed areas are rounded in every operation; a test compares two clouds of its author's choice, far from the limit.", "anchors": ["apps/merge/merge.cpp: main", "apps/merge/merge.h: append", "apps/merge/merge_cmd.h: get_args"]}
{"id": "C92", "title": "The debug build differs from the release build only by stopping at failed checks", "statement": "For every command line, every content of the files and the standard input, each application in the debug build either stops at a failed check (assert, or the exception of the macros of contracts.h), or leaves the same files, writes the same bytes and ends in the same way as in the release build. compress, decompress, diff, info, merge and srs never stop at a check, nor does filter, nor tile unless the name of the input ends with a slash. Reading a stream is the same in both builds whatever its bytes are; writing is the same for files whose points have equally many extra fields, and otherwise the debug build throws before it writes anything.", "quantifier": "for all ten applications, all command lines, file systems, standard inputs, compression libraries, shuffles, sorts and random generators; for all streams, files, clouds and arguments of the library functions", "why_tests_cant": "Tests run in one build; that the checks have no side effects on the results and are not reachable from the applications would need every input in both builds.", "anchors": ["spoc/contracts.h", "spoc/io.h: read_file, write_file", "spoc/subsampling.h", "spoc/radius_search.h", "spoc/extent.h", "apps/*/*.cpp: main"]}
{"id": "C93", "title": "The area and the volume of the box around a cloud are right and never shrink", "statement": "For a non-empty cloud whose coordinates are finite and at most 2^300 in magnitude, get_area and get_volume of get_extent are the area and the volume of the smallest box around the points up to the rounding of at most five operations. They are never negative, adding points never makes them smaller, and they are exactly 0 when the box is flat. For no points the area is +infinity and the volume is -infinity.", "quantifier": "for all non-empty lists of points with finite coordinates of magnitude at most 2^300, and for all lists that contain them", "why_tests_cant": "Tests compare a few boxes with integer sides; monotonicity and the error bound involve rounding of arbitrary doubles.", "anchors": ["spoc/extent.h: get_area, get_volume, get_extent"]}
{"id": "C94", "title": "Noise stays within its magnitude and is determined by the seed", "statement": "apply of transform with a uniform-noise command and the random numbers of libstdc++ keeps the number and the order of the points, changes only the named coordinates, and moves none of them by more than the magnitude, up to the rounding of one sum. With a gaussian-noise command the rejection loop of the distribution ends for every seed, and no coordinate moves by more than 13 deviations or becomes infinite. Seeds that are different and not zero modulo 2147483647 move every point differently; seeds that are equal modulo 2147483647, and 0 and 1, give the same file. In the application, which rejects the noise commands, the option random-seed has no effect.", "quantifier": "for all well-formed uncompressed files with coordinates of magnitude at most 2^1000, all magnitudes from 0 (for the difference of seeds: 2^-900) to 2^1000, all seeds, both builds; for all command lines of the application", "why_tests_cant": "Tests look at the extremes of one hundred random offsets with one seed; that no offset ever exceeds the magnitude, in spite of the roundings, and that no two seeds coincide, concerns all 2^31 states of the engine.", "anchors": ["apps/transform/transform.h: get_uniform_noise_op, get_gaussian_noise_op, apply", "apps/transform/transform_cmd.h: get_args"]}
{"id": "C95", "title": "Which bytes are read as a file", "statement": "spoc::io::read succeeds without running into the end of the stream if and only if the bytes begin with the documented layout of a file, and it returns exactly this file and leaves the bytes behind it in the stream. So a truncated file is always noticed by whoever looks at the state of the stream after reading; and a compressed file one of whose blocks is damaged or has the wrong number of values is refused.", "quantifier": "for all byte strings, all files, all zlibs (correct or not), both builds; compressed files below 4 GiB", "why_tests_cant": "Tests read what the library has written; which of all byte strings are accepted, and that nothing else is, cannot be enumerated.", "anchors": ["spoc/io.h: read_spoc_file, read_uncompressed_points, read_compressed_points", "spoc/header.h: read_header", "spoc/compression.h: decompress", "README.md: file format"]}
{"id": "C96", "title": "Fields can be carried from one file to another as text", "statement": "What tool --get-field prints for one file, saved in a text file and given to tool --set-field with another file that has no more points, gives each point of the second file the value of the point with the same number in the first file, in the field named, and changes nothing else; the two fields may be different (the values are reduced to the width of the new field).", "quantifier": "for all file systems, all command lines with these options, all files (the second one uncompressed with at most 123 extra fields), all fields, coordinates with at most 16 significant digits, both builds, all correct zlibs", "why_tests_cant": "Tests export and import one field of one small file in memory; that text, file system and both command lines fit together for every pair of files is a statement about two runs over all inputs.", "anchors": ["apps/tool/tool.h: get_field, set_field", "apps/tool/tool.cpp: main", "apps/tool/tool_cmd.h: get_args"]}
{"id": "C97", "title": "Coordinates that are not finite", "statement": "The transform application adds and multiplies coordinates as IEEE 754 says in all cases, including infinities and NaN (so an infinite coordinate scaled by zero is NaN, not zero). No sequence of commands turns a coordinate that is not finite into a number, unless a set command sets this coordinate. Quantising a cloud with such a coordinate is undefined behaviour.", "quantifier": "for all well-formed uncompressed files with arbitrary coordinates, all lists of commands, all arguments, all seeds, sines, cosines and random numbers, both builds", "why_tests_cant": "Tests use finite coordinates; that a missing coordinate (NaN) never silently becomes a location, through any combination of commands, cannot be tested.", "anchors": ["apps/transform/transform.h: get_add_x_op, get_scale_x_op, get_rotate_x_op, get_quantize_op, apply"]}
{"id": "C98", "title": "A subsampled cloud covers the original one", "statement": "After subsampling with side r, every point of the original cloud has a kept point that is at most r away from it along each axis (up to the rounding of the coordinates), so holes can only be as large as a voxel; and the number of kept points is at most the number of voxels of side r in the bounding box.", "quantifier": "for all finite clouds of any size, all positive finite resolutions, all seeds and shuffles, whenever the voxels can be numbered; in the library and through the filter application on files", "why_tests_cant": "The claim is about distances between all pairs of points of arbitrary clouds and involves the rounding of three floating-point operations at every voxel boundary.", "anchors": ["spoc/subsampling.h: get_subsample_indexes", "spoc/voxel.h: get_voxel_index, get_voxel_indexes", "apps/filter/filter.h: subsample"]}
{"id": "C99", "title": "What info reports does not depend on the order of the points", "statement": "Reordering the points of a file does not change anything that info prints, in either format and with any of the switches; and splitting a file with tile, merging the tiles and asking info for everything but the field summaries gives the same text as for the original file, as tests/integration/test_merge.sh checks for two files.", "quantifier": "for all files of any size without NaN coordinates and without zeros of both signs in one coordinate, all orders of the points, all switches of info, all sorting functions; for all tile sizes, prefixes, merge orders and point ids", "why_tests_cant": "There are as many orders as permutations; the report combines minima, maxima, quartiles, counts, extents and numbers of occupied voxels, each computed by a loop in the order of the points, and the integration test looks at two files.", "anchors": ["apps/info/info.h: process, get_class_count_map, get_metric_values, get_summary_string, get_summary_object", "tests/integration/test_merge.sh", "apps/merge/merge.h", "apps/tile/tile.h"]}
{"id": "C100", "title": "Merging in stages is merging at once", "statement": "With a given point id, merging some files, redirecting the result into a file and merging that with further files produces byte for byte the file that merging all of them in one command produces; without a given id the points, their order, the spatial reference and the compression are the same and only point ids differ.", "quantifier": "for all numbers of files in both stages, all contents that fit together, compressed or not, all point ids below 2^31, all file systems and quiet or not", "why_tests_cant": "The claim compares the outputs of two different sequences of commands for arbitrary lists of files and arbitrary contents, including the compression flag and the id of every point; a test can only try a few groupings.", "anchors": ["apps/merge/merge.cpp: main", "apps/merge/merge.h: append"]}
{"id": "C101", "title": "Moving or scaling a cloud can be undone", "statement": "Adding a number to a coordinate and then the opposite number, in the transform application, changes nothing but that coordinate and restores it up to one unit in the last place of the shifted coordinate; if the coordinates and the number are multiples of one power of two and not too large, it restores it exactly. Scaling by a power of two and its inverse restores every coordinate bit by bit unless bits are lost at the ends of the range.", "quantifier": "for all files, all three axes, all decimal numerals in range for the number that is added, all coordinates up to 2^1000 in size (for the bound) or on any binary grid (for exactness), and all powers of two from 2^-1022 to 2^1022", "why_tests_cant": "Whether x + v - v gives x back depends on the exponents of 64-bit patterns of x and v; there are 2^128 pairs, the tests try a few.", "anchors": ["apps/transform/transform.h: get_add_x_op, get_scale_x_op, apply", "apps/transform/transform_cmd.h: get_args"]}
{"id": "C102", "title": "Transform commands for different fields can be given in any order", "statement": "If no command of a list changes a field that another command of the list changes or looks at, then all orders of the commands give the same result in the transform application: a run with one order succeeds with some output exactly if a run with any other order succeeds with the same output. The noise commands are included: what a command draws does not depend on the commands around it.", "quantifier": "for all inputs (well-formed or not), all lists of commands with arbitrary argument strings in which the commands spare each other, all permutations, all commands before and after, all seeds, both builds", "why_tests_cant": "There are 23 commands, arbitrarily many fields and arbitrarily long command lists; the tests run a handful of single commands and never compare orders.", "anchors": ["apps/transform/transform.h: apply and all get_*_op", "apps/transform/transform_cmd.h: get_args"]}
{"id": "C103", "title": "Filtering before merging is filtering after merging", "statement": "Running filter on each of several files and merging the results writes exactly the bytes that merging the files and piping the result through filter with the same options does, as long as the options judge each point by itself (classes to keep, classes to remove, condition on a coordinate). With --unique-xyz and --subsample, which look at several points, it does not.", "quantifier": "for all file systems, all numbers of files, all clouds that can be written and read, all file names (no output being another input or output), all filter requests without --unique-xyz and --subsample, all merge options, both builds", "why_tests_cant": "It is about sequences of arbitrarily many runs of two applications over a shared file system; the shell tests never compare two pipelines.", "anchors": ["apps/filter/filter.h: keep_classes, remove_classes, remove_coords", "apps/filter/filter.cpp: main", "apps/merge/merge.h: append", "apps/merge/merge.cpp: main"]}
{"id": "C104", "title": "Transforming before merging is transforming after merging", "statement": "If no command looks at or changes the point ids, then running transform on each of several uncompressed files and merging the results writes exactly the bytes that merging the files and piping the result through transform with the same commands does; and the transformation of the merged file succeeds exactly if those of all single files do. Commands that look at or set the point ids do not have this property, because merge overwrites them.", "quantifier": "for all file systems, all numbers of files, all uncompressed clouds with at most 123 extra fields, all file names (no output being another input or output), all non-empty lists of command options (with arbitrary arguments) that do not name the field p, all merge options, all sines, cosines and random numbers, both builds", "why_tests_cant": "It is about sequences of arbitrarily many runs of two applications with arbitrary command lists over a shared file system; the shell tests never compare two pipelines.", "anchors": ["apps/transform/transform.h: apply and all get_*_op", "apps/transform/transform.cpp: main", "apps/merge/merge.h: append", "apps/merge/merge.cpp: main"]}
{"id": "C105", "title": "Compression is transparent to the applications", "statement": "Two files that hold the same spatial reference and the same points, one compressed and one not, lead to the same with the same options: filter, tool and srs write clouds with the same spatial reference and the same points (or both fail in the same way, print the same text, and change nothing); merge writes clouds with the same spatial reference and the same points; diff comes to the same result when data or fields are compared, and reports a difference when headers are compared; info prints the same report, up to the one word that says whether the file is compressed; tile writes tiles with the same points. transform is the exception: it rejects every compressed file and leaves an empty output file.", "quantifier": "for every pair of files, all options and all commands of the applications (for tile: new file names that can be created), both build types, any zlib, shuffle and sort", "why_tests_cant": "A test compares one compressed file with its uncompressed twin for one command line; that no combination of options and no content makes an application look at the flag is a statement about all of them.", "anchors": ["apps/filter/filter.h: all filters", "apps/tool/tool.h: all commands", "apps/srs/srs.cpp: main", "apps/merge/merge.cpp: main", "apps/diff/diff.h: diff", "apps/info/info.h: process", "apps/tile/tile.cpp: main", "apps/transform/transform.h: read_header_uncompressed"]}
{"id": "C106", "title": "Running an application on its own output", "statement": "Some operations settle: applied to their own result, with the same options, they write the very same bytes again. This holds for filter without --subsample (and without a seed for --unique-xyz), for srs setting a text, for tool resizing the extra fields, setting a field from a file and subtracting the least coordinates (finite ones), and for transform with commands that give fields values (set, replace, replace-not, copy-field), if no command writes a field that a command before it (or, for copy-field, itself) reads. Each restriction is needed: subsampling, unique points with a seed, recentring, subtracting with infinite coordinates, quantizing, and replacing in the wrong order change the result of a first run.", "quantifier": "for every input that can be read, all options of these kinds, every content of the other files, both build types, any zlib that inverts itself and any lawful shuffle", "why_tests_cant": "A test runs a command twice on a few clouds; that a second run never changes anything, whatever the points and the options, is a statement about all of them, and the cases where it fails depend on the last bits of the coordinates.", "anchors": ["apps/filter/filter.h: keep_classes, remove_classes, unique_xyz, remove_coords", "apps/srs/srs.cpp: main", "apps/tool/tool.h: resize_extra, set_field, subtract_min", "apps/transform/transform.h: apply, get_set_op, get_replace_op, get_replace_not_op, get_copy_field_op"]}
{"id": "C107", "title": "What set and copy-field store", "statement": "transform --set=f,v: the number v is rounded to a nearest double; a coordinate becomes that double; in any other field the fraction is cut off and the result is stored in every record, nothing else changing. Whole numbers below 2^53 that fit into the field are stored exactly. Numbers that the field cannot hold (-1 and less, 2^width and more) are not refused: the conversion is undefined behaviour; larger 64-bit numbers are rounded (2^53+1 is stored as 2^53), and 2^64-1, which an extra field can hold, is undefined behaviour. transform --copy-field=a,b: in every record b becomes the value of a, modulo 2^width if b is narrower, without a message; nothing else changes; afterwards the fields are equal exactly if the values fit. Coordinates and missing fields are refused. In all failing cases the header has already been written.", "quantifier": "for all fields, all decimal numerals in the range of doubles, all uncompressed files with any number of records and extra fields, both build types", "why_tests_cant": "Whether a number survives the way decimal text, double, integer field depends on the number and on the field: tests set 1 or 2 and cannot show that all numbers below 2^53 are exact nor where the undefined behaviour begins.", "anchors": ["apps/transform/transform.h: get_set_op, get_copy_field_op, apply", "apps/transform/transform.cpp: main", "apps/app_utils.h: consume_double, consume_field_name"]}
{"id": "C108", "title": "Order and repetition of options", "statement": "Two command lines that ask for the same have the same effect on files, output and result: the order of options with different names does not matter, except between the commands of transform (and the fields of diff); a switch given twice is the same as once; of several values for an option only the last counts; keep-class and remove-class collect. The switches of info and merge's --quiet toggle: given twice they take themselves back. tool takes exactly one command and fails without any effect if there are two.", "quantifier": "for all ten applications, all command lines without help, any operands, all file systems and inputs, both build types", "why_tests_cant": "The number of orders and repetitions of options is unbounded; tests use one command line for each option.", "anchors": ["apps/filter/filter_cmd.h: get_args", "apps/info/info_cmd.h: get_args", "apps/merge/merge_cmd.h: get_args", "apps/tile/tile_cmd.h: get_args", "apps/tool/tool_cmd.h: get_args, set_command", "apps/transform/transform_cmd.h: get_args", "apps/diff/diff_cmd.h: get_args", "apps/srs/srs_cmd.h: get_args"]}
{"id": "C109", "title": "Being neighbours is mutual", "statement": "In a search of points among themselves (radius_search_indexes, radius_search_all), if j is listed as a neighbour of i then i is listed as a neighbour of j, and every point lists itself, unless the maximum has cut the list in question. Chance decides nothing until the maximum cuts a list: with any other random numbers the same neighbours are listed, in some order. A smaller maximum keeps the first entries of every list.", "quantifier": "for all clouds, index vectors, radii, maxima, random numbers and both build types for which the search returns; the first two for voxel indexes below 2^31 - 2, the own neighbour for finite coordinates and a radius that is not negative", "why_tests_cant": "A test examines some pairs of points; at the rim, where rounding decides what is found, mutuality depends on floating-point subtraction, multiplication and the voxel grid being symmetric for every pair.", "anchors": ["spoc/radius_search.h: radius_search, radius_search_indexes, radius_search_all, get_neighbors, random_neighbor_selector", "spoc/point.h: distance", "spoc/voxel.h: get_voxel_indexes"]}
{"id": "C110", "title": "Filtering and transforming commute", "statement": "Filtering a cloud and then transforming what is left writes the very same file as transforming the cloud and then filtering the result, if no command of the transformation changes a field that the filter looks at (the class for keep-class and remove-class, the coordinates for unique-xyz and subsample, the one coordinate for remove-coords), and both succeed on the cloud.", "quantifier": "for all uncompressed clouds, all combinations and values of the filter options (any seed), all sequences of commands without noise, all trailing bytes, both build types", "why_tests_cant": "The number of combinations of filters and commands is unbounded; a test runs one pipeline in one order.", "anchors": ["apps/filter/filter.h: keep_classes, remove_classes, unique_xyz, subsample_file, remove_coords", "apps/filter/filter.cpp: main", "apps/transform/transform.h: apply", "apps/transform/transform.cpp: main"]}
{"id": "C111", "title": "A resolution that is a power of two coarser keeps a part of the points", "statement": "If a finite cloud can be subsampled with some resolution, it can be subsampled with every resolution that is a power of two times as large (same seed), and the coarser run writes only points that the finer run writes too, in the same order; likewise points that share a tile share a tile of every grid whose tiles are powers of two larger.", "quantifier": "for all finite clouds, all positive resolutions h and 2^k h that are doubles, all seeds and shuffles, both build types", "why_tests_cant": "The claim is about all clouds, and about the rounding of each quotient (coordinate - minimum) / resolution; a test compares two runs on one cloud.", "anchors": ["spoc/voxel.h: get_voxel_index", "spoc/subsampling.h: get_subsample_indexes", "apps/filter/filter.h: subsample_file", "apps/tile/tile.h: get_tile_indexes"]}
{"id": "C112", "title": "The numbers of points that info reports add up", "statement": "The class section that info prints has, for every class, one line with the number of points of the class in the file, or no line if there is none. Hence the reported numbers add up: the report on a merged file shows for every class the sum of the numbers in the reports on the merged files, the reports on the tiles of a file sum to the report on the file, and after filter with keep-class and remove-class options every class shows its old number or none.", "quantifier": "for all files, class numbers, command lines that ask for class information only, lists of merged files with equally many extra fields, tile sizes and keep/remove options, both build types", "why_tests_cant": "A test compares the report on one file with an expected text; the claim relates the texts of several program runs for all files.", "anchors": ["apps/info/info.h: process", "apps/merge/merge.h: append", "apps/filter/filter.h: keep_classes", "apps/filter/filter.h: remove_classes", "apps/tile/tile.h: process"]}
{"id": "C113", "title": "Only the differences of the coordinates matter for grouping points", "statement": "If a cloud is moved as a whole, so that every point of the second cloud is exactly the same displacement away from its counterpart in the first, then all operations that group points do the same with both: every point is in the same voxel, subsampling and the removal of points at the same place keep the same points, a radius search finds the same neighbours, and tile sizes and tile numbers are the same. Hence filter and transform can be exchanged: subsampling a cloud and adding a number to a coordinate writes the same bytes as adding the number first, when no sum is rounded.", "quantifier": "for all clouds with finite coordinates, all displacements for which no coordinate is rounded, all resolutions, radii, tile sizes, seeds and random orders; for the applications all filter options without a condition on the moved coordinate and all transform commands that move the cloud", "why_tests_cant": "A test moves one cloud by one vector; the claim is about all clouds and all displacements, and a bug such as snapping the grid to the origin instead of to the cloud shows only for some of them.", "anchors": ["spoc/voxel.h: get_voxel_indexes", "spoc/subsampling.h: get_subsample_indexes", "spoc/subsampling.h: get_unique_xyz_indexes", "spoc/radius_search.h: radius_search", "apps/tile/tile.h: get_tile_indexes", "apps/filter/filter.h: subsample_file", "apps/transform/transform.h: apply"]}
{"id": "C114", "title": "How many points subsampling keeps depends on the occupied places only", "statement": "The number of points that subsampling and the removal of points at the same place keep depends only on the places that the points are at: not on the order of the points, not on how many points there are at a place, not on the seed and not on the random order. In the same way whether subsampling succeeds depends only on the places. So filter with --subsample or --unique-xyz, and any --keep-class and --remove-class, writes equally many points for two files whose classes occupy the same places, for any two seeds.", "quantifier": "for all pairs of clouds with finite coordinates, and for the application all pairs of inputs that can be read (compressed columns below 4 GiB, as in C02), that occupy the same places (per class, for the class options), all resolutions, all pairs of seeds, shuffles and build types", "why_tests_cant": "A test compares the counts for some orders and some seeds; the claim covers all permutations, multiplicities and random orders.", "anchors": ["spoc/subsampling.h: get_subsample_indexes", "spoc/subsampling.h: get_unique_xyz_indexes", "spoc/voxel.h: get_voxel_indexes", "apps/filter/filter.h: subsample_file", "apps/filter/filter.h: unique_xyz"]}
{"id": "C115", "title": "Generated test data keeps its ranges for every seed", "statement": "The generators that the tests and the benchmarks rely on deliver, for every seed, as many records or points as asked for: each record has the asked number of extra fields, coordinates, classifications and colours in their documented ranges, and no colour when none is asked for; each generated cloud has finite coordinates inside its box, its radius, or its range of exponents. The loops that skip unusable random numbers always end. Equal seeds give equal data, and different seeds give different data. Generated files survive being written and read. The comparison of coordinates accepts only numbers that differ by at most a thousandth, and the names of temporary files have the asked length.", "quantifier": "for all seeds, numbers of records, numbers of extra fields, extents, radii, exponents, clocks and all pairs of moderate numbers", "why_tests_cant": "A test uses one seed and looks at a few records; whether the rejection loops end for every state of the engine, and whether all values stay in their ranges for all seeds, cannot be tested by sampling.", "anchors": ["spoc/test_utils.h: generate_random_point_records", "spoc/test_utils.h: generate_random_spoc_file", "spoc/test_utils.h: generate_points", "spoc/test_utils.h: get_noisy_point_cloud", "spoc/test_utils.h: get_noisy_gaussian_point_cloud", "spoc/test_utils.h: about_equal", "spoc/test_utils.h: generate_tmp_filename"]}
{"id": "C116", "title": "No axis is preferred", "statement": "If the coordinates of all points of a cloud are exchanged in the same way (any of the six orders of the axes), then the bounding box and the centre are exchanged in the same way, to the last bit; every point is in the voxel with the exchanged numbers; subsampling, removing points at the same place and cropping with the exchanged box keep the same points; quantisation gives the exchanged cloud; and all of these are undefined for one cloud exactly if they are for the other. Exchanging x and y together with the two tile sizes leaves the same points together in a tile, and the tile size for n tiles is the same. (The radius search is an exception: the squares are added in the order x, y, z, and so a pair of points at the very radius may be neighbours in one order only.)", "quantifier": "for all clouds (with all bit patterns as coordinates; finite ones for tiles), all six orders of the axes, all voxel sizes, boxes, precisions, seeds, shuffles and tile sizes with fewer than 2^32 columns and rows", "why_tests_cant": "Tests use a few clouds, mostly with equal treatment of the axes by accident of the data; a slip of the pen in one of the three copies of a line shows only for data that differ along that axis.", "anchors": ["spoc/extent.h: get_extent", "spoc/voxel.h: get_voxel_index", "spoc/subsampling.h: get_subsample_indexes", "spoc/subsampling.h: get_unique_xyz_indexes", "spoc/utils.h: get_center", "spoc/utils.h: crop", "spoc/utils.h: quantize", "apps/tile/tile.h: get_tile_size", "apps/tile/tile.h: get_tile_indexes", "spoc/point.h: distance"]}
{"id": "C117", "title": "The unit of length does not matter", "statement": "If all coordinates of a cloud are multiplied by the same positive factor, and the voxel size or the tile sizes with them, then every point is in the same voxel and in the tile with the same number, the bounding box is multiplied by the factor, and subsampling and removing points at the same place keep the points with the same numbers. This holds for factors that are powers of two, whatever the coordinates, and for all other factors as long as neither the products nor the differences of coordinates are rounded; for decimal factors with rounding (metres to decimetres) it does not. It does not hold for tiles given by their number, because a constant is added to the size of the cloud whatever the unit, nor for the radius search, where squares of small differences become zero.", "quantifier": "for all types of points, all finite clouds, all positive real factors, all finite voxel and tile sizes, all seeds, all shuffles, both builds", "why_tests_cant": "It relates runs on two clouds for all factors and clouds; whether a point changes its voxel depends on the last bit of a quotient, which no choice of test points covers.", "anchors": ["spoc/voxel.h: get_voxel_index", "spoc/voxel.h: get_voxel_indexes", "spoc/extent.h: get_extent", "spoc/subsampling.h: get_subsample_indexes", "spoc/subsampling.h: get_unique_xyz_indexes", "apps/tile/tile.h: get_tile_indexes", "apps/tile/tile.h: get_tile_size", "spoc/radius_search.h: radius_search"]}
{"id": "C118", "title": "A pipeline of filters is one filter", "statement": "If every step that a first filter command asks for comes before every step that a second one asks for, in the fixed order keep-class, remove-class, unique-xyz, subsample, remove-coords (both may remove classes), then running the second on the output of the first gives the same bytes as one run with the options of both, and it succeeds exactly when the one run does. Filters that judge each point by itself (classes and conditions) can be put into a pipeline in either order.", "quantifier": "for all inputs that can be read as an uncompressed file, all lists of classes, all seeds, resolutions and conditions, all option orders and spellings, both builds", "why_tests_cant": "Whether a run can be split depends on the combination of up to ten options with arbitrary values and on the intermediate file being read back exactly; tests try a few option combinations on fixed clouds.", "anchors": ["apps/filter/filter.h: keep_classes", "apps/filter/filter.h: remove_classes", "apps/filter/filter.h: unique_xyz", "apps/filter/filter.h: subsample_file", "apps/filter/filter.h: remove_coords", "apps/filter/filter.cpp: main", "spoc/io.h: read_spoc_file", "spoc/io.h: write_spoc_file"]}
{"id": "C119", "title": "A cloud can be processed tile by tile", "statement": "If a cloud is split with spoc_tile, each tile is run through the same spoc_filter that judges points one by one (--keep-class, --remove-class, --remove-coords) or removes duplicate locations (--unique-xyz, without a seed), or through the same spoc_transform, and the results are put together with spoc_merge, then the points that come out are those of one run of the same command on the whole cloud, with every field, up to their order and the point ids that merge assigns, and the spatial reference is the same. The transform of the whole cloud succeeds exactly if the transforms of all tiles succeed. The same is not true for --subsample: the number of points that are left depends on the tiles.", "quantifier": "every uncompressed cloud that a file holds, every tile size or tile count and prefix for which the tiles can be written, every set of points, every list of transform commands and every such filter, every choice of names for the results, every order in which the tiles are merged, with or without --point-id, any standard input position and any contents of the rest of the disk", "why_tests_cant": "A test runs a script on one cloud with one tile size; it cannot show that no point on a border of tiles is lost, doubled or treated differently, for every cloud, tile size and command.", "anchors": ["apps/tile/tile.cpp: main", "apps/tile/tile.h: get_tile_indexes", "apps/filter/filter.cpp: main", "apps/transform/transform.cpp: main", "apps/merge/merge.cpp: main"]}
{"id": "C120", "title": "The ways to change the records of a file agree", "statement": "A file of point records can be changed in three ways: record by record with get_point_record and set_point_record, all at once with get_point_records and set_point_records, and by moving the records out with move_point_records and back in. If the change keeps the number of extra fields of each record, all three succeed and leave exactly the same file. For any other change the three differ, and the property says how: record by record the records before the first one with another number of extra fields are changed and the rest is as it was; all at once the file is as it was, unless the changed records agree in their number of extra fields, which is accepted; with moving the same changes are accepted, but a refused one leaves the file without records. In all cases the file stays consistent. Records that are pushed back again and again arrive in the file as they would in a vector.", "quantifier": "every file whose records have the same number of extra fields, every function from records to records, every number of repetitions, both builds; and the benchmark program on every list of records with at least one extra field", "why_tests_cant": "A test tries one change on one file; it cannot show that the three interfaces agree for every change and every file, nor what is left behind by each refused change.", "anchors": ["spoc/file.h: get_point_record", "spoc/file.h: set_point_record", "spoc/file.h: set_point_records", "spoc/file.h: move_point_records", "spoc/file.h: push_back", "benchmarks/benchmark_spoc_file.cpp: main"]}
{"id": "C121", "title": "A timer shows the time since it was started", "statement": "After any sequence of start and stop, elapsed_ms of a timer is the time from the last start (making the timer counts as one) to the last stop if nothing came after it, and otherwise to now, in whole milliseconds rounded towards zero. While the timer stands it always shows the same. With any clock, the number is not negative and differs from the length of the interval by less than a millisecond.", "quantifier": "every sequence of starts and stops, every reading of the clock at each of them", "why_tests_cant": "A test sees a few readings of a real clock; it cannot enumerate the sequences of starts and stops, and it cannot set the clock back.", "anchors": ["spoc/benchmark_utils.h: timer"]}
{"id": "C122", "title": "The benchmark of reading and writing reads back what it has written", "statement": "benchmark_io measures what it says: the uncompressed records that it reads are exactly the ones that it has written, and the compressed file that it reads has the spatial reference and the records that were written, up to the sign of coordinates that are zero. If its file can be written and read, it ends with 0, leaves the compressed cloud in that file and changes no other file. If the file can't be opened for writing, it ends with -1 and changes nothing.", "quantifier": "every list of fewer than 2^64 records with the same number of extra fields, at most 123, whose columns fit into 32-bit block sizes, every file system, both builds; and the records that the program generates", "why_tests_cant": "The benchmark has no checks of its own and takes long; a run shows times only, and only for one list of random records.", "anchors": ["benchmarks/benchmark_io.cpp: main", "spoc/io.h: read_uncompressed_points", "spoc/io.h: write_spoc_file_compressed", "spoc/io.h: read_spoc_file_compressed", "spoc/point_record.h: write_point_record"]}
{"id": "C123", "title": "The viewer shows what is chosen", "statement": "The point cloud viewer gives each point the color of what the dropdown shows. By color: the upper eight bits of each channel. By elevation: one of nine colors, the lowest points the first, the highest the last, never an earlier color for a higher point, and the color tells in which eighth of the range the elevation is, up to rounding; this works for every cloud. By class: the color of the class in the table. By segment: the color of the first extra field. A choice that has no colors raises an exception and leaves the colors of the latest choice that has. The points always have the size that the slider shows.", "quantifier": "every cloud, every sequence of moving the slider, choosing in the dropdown, emptying the dropdown and loading the page again", "why_tests_cant": "A test of a page tries a few clicks on one cloud; it cannot show for all clouds that no rounded index is outside of the table, and it cannot enumerate the sequences of clicks.", "anchors": ["spocpy/examples/point_cloud_viewer.py: update_figure", "spocpy/spocpy/spocpy.cpp: getZ"]}
{"id": "C124", "title": "Messages are kept apart from results, and --verbose changes nothing else", "statement": "Adding --verbose (or -v) to a command line changes neither the files, nor the standard output, nor the outcome. Without --verbose and --help, with options that are known, the standard error stays empty unless the application fails; then it has one line, the reason. The exception is merge, which may print its two warnings, unless --quiet is given (an odd number of times). With --verbose every file that an application changes is named on the standard error, also if the application fails later.", "quantifier": "every one of the ten applications, every command line, every file system and standard input, any zlib, any way of printing numbers", "why_tests_cant": "Whether an option changes anything but messages is a statement about pairs of runs for all command lines and files; a test compares a few pairs. Silence is the absence of messages on all paths.", "anchors": ["apps/tool/tool.cpp: main", "apps/merge/merge.cpp: main", "apps/filter/filter.cpp: main", "apps/tool/tool_cmd.h: get_args"]}
{"id": "C125", "title": "What the messages say is true", "statement": "The verbose messages agree with the results. The last message of a verbose comparison says that the files are the same exactly if what was compared is the same. After the transfer of classes to a cloud of higher resolution, the message says how many of its points were assigned a class, and the question whether this is the right file is asked exactly if there are points that were not assigned one. If the low-resolution cloud is the high-resolution one after subsampling, all points are counted. If merge succeeds without --quiet, it warns about different spatial reference systems exactly if some file has another one than the first.", "quantifier": "every two clouds, every resolution, every command line of these forms, any zlib", "why_tests_cant": "The messages are for people, and tests check statuses and files; a message that contradicts the status, or a count that is too large, passes all tests.", "anchors": ["apps/diff/diff.cpp: main", "apps/tool/tool.h: upsample_classifications"]}
{"id": "C126", "title": "Transferring classes again, from several clouds, and from the cloud itself", "statement": "Transferring the classes of a low-resolution cloud to a high-resolution one a second time changes nothing. Transferring them from one cloud and then from another one to the result is transferring them from both clouds merged. Of the low-resolution cloud only the locations and the classes matter. A cloud keeps its classes when they are transferred from itself, and the order of the points of neither cloud matters.", "quantifier": "every two or three clouds, every resolution for which the voxel indexes are defined, both builds; with files: every file system, any correct zlib", "why_tests_cant": "The laws relate the results of several runs for all clouds; a test compares the results for one pair of clouds and cannot tell a law from a coincidence. Which of several points in a voxel wins is not visible in a test with one point per voxel.", "anchors": ["apps/tool/tool.h: upsample_classifications", "apps/tool/tool.cpp: main"]}
{"id": "C127", "title": "An application reads and writes only the files that its command line names", "statement": "The results of an application, that is its outputs, messages, outcome and what it leaves in the files concerned, depend on no file but its operands, the arguments of --field-filename and --upsample-classifications (tool) and the tiles (tile). Whether it succeeds or fails, it changes no file but the second of two operands or the tiles; diff, info and merge change none. No file is removed, a file that may not be written is not changed, and permissions stay as they are.", "quantifier": "every one of the ten applications, every command line, every two file systems that agree on the named files, any zlib", "why_tests_cant": "That all other files are left alone and do not matter is a statement about all of them; a test looks at a few files in one directory. It includes all failures on the way.", "anchors": ["spoc/app_utils.h: input_stream", "spoc/app_utils.h: output_stream", "apps/tile/tile.cpp: main", "apps/tool/tool.cpp: main", "apps/srs/srs.cpp: main"]}
{"id": "C128", "title": "Independent runs can be done in any order", "statement": "If no run of an application writes a file that concerns another one, the runs can be done in any order: the files afterwards are the same, and each run gives the output, the messages and the outcome that it gives alone.", "quantifier": "every list of runs of any of the ten applications that are pairwise independent, every permutation of it, every file system", "why_tests_cant": "The number of orders grows with the factorial of the number of runs, and what one run could leave behind for another is not visible in the test of one.", "anchors": ["spoc/app_utils.h: output_stream", "apps/tile/tile.cpp: main"]}
{"id": "C129", "title": "The spatial reference is only carried along", "statement": "No application lets the spatial reference of its input influence the points it writes, and each passes it on: with the same options, files that differ only in the spatial reference give outputs that differ only in it, and each output has that of its input (merge: of the first file; tile: every tile; upsampling classes: that of the file that receives them). Comparing data or fields and reports without the header do not depend on it, and the spatial reference can be set before or after filtering with the same result.", "quantifier": "all clouds and all pairs of spatial references, all options and command lines of filter, tool, merge, tile, transform, diff (data or fields) and info (without header), all states of the file system", "why_tests_cant": "It is a statement about pairs of runs on all inputs with all options; a test compares single runs with stored results.", "anchors": ["apps/filter/filter.cpp: main", "apps/tool/tool.h: upsample_classifications", "apps/merge/merge.cpp: main", "apps/transform/transform.h: apply", "apps/tile/tile.cpp: main"]}
{"id": "C130", "title": "Points in another order lead to the same points in another order", "statement": "Processing a cloud does not depend on the order of its points beyond the order of the output: with the same options, filter, tool, transform, tile and merge turn files that hold the same points in another order into files that hold the same points in another order; each point is kept, changed, or put into a tile in the same way wherever it stands. (False of the code where it chooses between points, draws random numbers, or rounds sums: --unique-xyz, --subsample, noise, recenter, and the signs of zeros after subtract-min.)", "quantifier": "all clouds, all permutations of their points, all options of filter without --unique-xyz and --subsample, resize-extra and subtract-min of tool, all commands of transform but noise, all options of tile and merge, all states of the file system", "why_tests_cant": "There are as many orders as permutations, and a test has its points in one of them.", "anchors": ["apps/filter/filter.h: keep_classes", "apps/tool/tool.h: subtract_min", "apps/transform/transform.h: apply", "apps/tile/tile.h: get_tile_indexes", "apps/merge/merge.h: append"]}
{"id": "C131", "title": "Places and attributes do not influence each other", "statement": "What happens to the places of points does not depend on their classes, intensities, colours and extra fields, and what happens to those does not depend on the places, unless the options say so: filter keeps the same points of two clouds if they agree in what its options are about, classes for keep-class and remove-class, places for unique-xyz, subsample and remove-coords; recentering, subtracting the minimum and tiling treat points at the same places alike, whatever their attributes, which are carried along; transform, if it succeeds for both clouds, takes same places to same places and same attributes to same attributes; upsampled classes depend on the places and the classes of the low-resolution cloud; get-field prints what depends on the named field only.", "quantifier": "all pairs of clouds whose points are related one by one, by any relation that fits the options; all options of filter and tile, the recenter and subtract-min commands of tool, all commands of transform (noise included), all states of the file system", "why_tests_cant": "A test compares a result with an expected value for one cloud; that nothing else was looked at is a statement about all pairs of clouds.", "anchors": ["apps/filter/filter.h: keep_classes", "apps/filter/filter.h: unique_xyz", "apps/tool/tool.h: recenter", "apps/tool/tool.h: upsample_classifications", "apps/transform/transform.h: apply", "apps/tile/tile.h: get_tile_indexes"]}
{"id": "C132", "title": "Tiling commutes with changes that leave x and y alone", "statement": "Changing a cloud and cutting the result into tiles gives the same files, byte for byte, as cutting the cloud into tiles with the same options and changing each tile: for every sequence of commands of transform that leaves x and y alone (heights, classes, intensities, colours and extra fields may change) and succeeds on the cloud, for tool --resize-extra, and for setting the spatial reference.", "quantifier": "all uncompressed clouds that can be written, all tile options, all sequences of transform commands without noise that leave x and y alone, all sizes of the extra fields that can be read back, all spatial references up to 65535 bytes, all file names (new names for the tiles), all states of the file system", "why_tests_cant": "Whether work may be done tile by tile is a statement about all clouds, grids and commands; a test runs one pipeline in one order.", "anchors": ["apps/tile/tile.h: get_tile_indexes, get_tile_size", "apps/tile/tile.cpp: main", "apps/transform/transform.h: apply", "apps/tool/tool.h: resize_extra", "apps/srs/srs.cpp: main"]}
{"id": "C133", "title": "A larger search radius finds at least the neighbours of a smaller one", "statement": "Searching the same points again with a larger radius, and with room for at least as many neighbours, reports every neighbour that the smaller radius reported (as long as the maximum number of neighbours is not reached), and in any case at least as many neighbours, whatever the random choices made in the two searches.", "quantifier": "all clouds with coordinates up to 2^490, all lists of points and candidates, all pairs of radii (the larger one at least 2^-500), all maxima, all random sequences, both builds", "why_tests_cant": "A test compares a few radii on a few clouds; the failure needs two radii that differ by one rounding step and points that sit on the border of a box.", "anchors": ["spoc/radius_search.h: radius_search, get_neighbors", "spoc/voxel.h: get_voxel_index", "spoc/point.h: distance"]}
{"id": "C134", "title": "Points at places that are taken change nothing when a cloud is thinned out", "statement": "Merging a cloud with itself (any number of times), with a part of itself, or with any clouds whose points are at places that the first cloud has a point at, and filtering the result with --unique-xyz or --subsample and without a random seed, writes byte for byte what filtering the first cloud alone writes, and fails exactly if that fails. Options about classes may be given too if the further points have the class of a point at their place, and a condition on a coordinate may be given.", "quantifier": "all uncompressed clouds with finite coordinates whose points have the point id that merge gives to the first file, all numbers of further files, all resolutions, all classes and conditions, all states of the file system, both builds", "why_tests_cant": "Whether accidental duplicates are harmless is a statement about all clouds and all ways to duplicate points; a test duplicates one cloud.", "anchors": ["apps/merge/merge.cpp: main", "apps/filter/filter.h: unique_xyz, subsample_file", "spoc/subsampling.h: get_subsample_indexes", "spoc/voxel.h: get_voxel_indexes"]}
{"id": "C135", "title": "What the Python examples print is true", "statement": "For any files that can be read from Python, fileio.py shows for every file its name, the version, the number of bytes of the spatial reference, the number of extra fields of its records, the number of records and whether it is compressed, as its header says, and then the same of the contents with the first three and the last three records; the header and the contents agree, whatever the bytes of the files are, and coordinates are shown to five decimals. timings.py shows the number of records of all files together. Both come to their end exactly if all files can be read (and, for fileio.py, the spatial references are UTF-8).", "quantifier": "all lists of names, all states of the file system, all contents of the files, all zlib implementations, both builds", "why_tests_cant": "That header and contents agree for every file that can be read, including damaged or foreign ones, is not settled by printing the files of the test data.", "anchors": ["spocpy/examples/fileio.py: main", "spocpy/examples/timings.py: main", "spocpy/spocpy/spocpy.cpp: py_readheader, py_readspocfile"]}
{"id": "C136", "title": "A cloud without points is a cloud like any other", "statement": "On a file whose cloud has no points, filter with any options, transform with any commands that it accepts, and tool with recenter, subtract-min and resize-extra succeed and write the same cloud, with the same spatial reference and compression; any other command of tool that succeeds leaves it as it is too, and upsampling from it leaves the other cloud as it is. tile writes no file and succeeds. info makes its report, and merge writes the same bytes if such files other than the first are left out (with a given point id, and if they do not decide about the compression).", "quantifier": "all clouds without points, compressed or not, with any spatial reference, all options, all states of the file system, all zlib implementations that are correct, both builds", "why_tests_cant": "The edge case meets every option and every application; each needs a statement about all options and texts, and a test tries one of them.", "anchors": ["apps/filter/filter.h", "apps/transform/transform.h: apply", "apps/tool/tool.h", "apps/tile/tile.h: get_tile_indexes, get_tile_size", "apps/info/info.h", "apps/merge/merge.cpp: main", "spoc/extent.h: get_extent"]}
{"id": "C137", "title": "Tiles and voxels are the cells that they should be", "statement": "A point is in the tile (voxel) whose column is the number of times that its distance from the smallest coordinate contains the size, computed without rounding, and the same for rows (and layers). So the points of one tile are less than a tile size apart, and tiling a tile again with the same size writes one file, with the same bytes.", "quantifier": "all clouds, all tile sizes and resolutions above zero with fewer than 2^32 - 1 columns and rows", "why_tests_cant": "The error is in the last bit of a quotient and shows for a few coordinates only; whether it can change a column needs an argument about all coordinates and sizes.", "anchors": ["apps/tile/tile.h: get_tile_indexes", "spoc/voxel.h: get_voxel_index, get_voxel_indexes", "apps/tile/tile.cpp: main"]}
{"id": "C138", "title": "A resolution that is a whole multiple of another one keeps a part of the points", "statement": "Subsampling a cloud with a resolution that is a whole number times another one (same seed) writes only points that the finer subsampling writes too, in the same order; and points that share a tile share a tile of every grid of tiles whose sides are whole multiples.", "quantifier": "all clouds, all resolutions and tile sizes and their whole multiples, all seeds and shuffles, both builds", "why_tests_cant": "Three times, five times, ten times a resolution: whether the cells of the coarser grid are made of cells of the finer one depends on every coordinate and the rounding of quotients.", "anchors": ["spoc/subsampling.h: get_subsample_indexes, subsample_points", "spoc/voxel.h: get_voxel_indexes", "apps/tile/tile.h: get_tile_indexes", "apps/filter/filter.cpp: main"]}
{"id": "C139", "title": "A radius search finds exactly the points within the radius", "statement": "A radius search succeeds, and the neighbours it lists for a point are points whose Euclidean distance, computed without rounding, is at most the radius; the list has as many entries as there are such points, up to the maximum, and no point is listed twice. So if the maximum is not reached the list is exactly the set of points within the radius.", "quantifier": "all clouds, all radii above zero, all lists of points and candidates, all maxima, all random sequences, both builds", "why_tests_cant": "Whether a point at the rim is found depends on the rounding of differences, squares, their sum, its root and two quotients.", "anchors": ["spoc/radius_search.h: radius_search, get_neighbors, random_neighbor_selector", "spoc/point.h: distance", "spoc/voxel.h: get_voxel_index"]}
{"id": "C140", "title": "Classes are carried over short distances only", "statement": "In `spoc_tool --upsample-classifications`, every point of the high-resolution cloud keeps its class or takes the class of some low-resolution point that lies within the given resolution of it along x, y and z. No class appears that neither cloud had, and none travels across the scene.", "quantifier": "for all pairs of finite clouds, every positive finite resolution, debug and release builds, and for the application every disk and every valid argument list", "why_tests_cant": "which low-resolution point a class came from is not visible in the output, and the range of clouds, resolutions and rounding cases is unbounded; the one-voxel spill below the minimum of the cloud only shows for points at the border", "anchors": ["apps/tool/tool.h: upsample_classifications", "spoc/voxel.h: get_voxel_index"]}
{"id": "C141", "title": "The center of a cloud lies within it and does not depend on the order of its points", "statement": "get_center returns, in each coordinate, the double that is nearest to the mean of the points; it lies between the smallest and the largest coordinate; and the same points in another order have the same center. Hence `spoc_tool --recenter-xy` and `--recenter-xyz` turn files that hold the same points in another order into files that hold the same points in another order.", "quantifier": "for all non-empty clouds and all permutations of their points; for the application every disk, file names and valid argument lists", "why_tests_cant": "the number of orders of n points is n!, the clouds are unbounded, and whether a running sum is rounded depends on the values and on the order in which they come", "anchors": ["spoc/utils.h: get_center", "apps/tool/tool.h: recenter"]}
{"id": "C142", "title": "Moving a cloud to the origin does not change its shape", "statement": "`spoc_tool --subtract-min-xy` and `--subtract-min-xyz` move all points by exactly the same displacement. Hence the moved cloud is grouped like the original one: every point is in the same voxel and in the same tile, subsampling and --unique-xyz keep the same points, and a radius search finds the same neighbours.", "quantifier": "for all non-empty clouds, resolutions, radii, tile sizes, seeds, random orders, disks and valid argument lists", "why_tests_cant": "the displacement is computed from the data and every difference is a rounded floating-point operation; whether two points that were apart come together depends on all coordinates at once", "anchors": ["apps/tool/tool.h: subtract_min", "spoc/voxel.h: get_voxel_indexes", "spoc/subsampling.h: get_subsample_indexes, get_unique_xyz_indexes", "spoc/radius_search.h: radius_search", "apps/tile/tile.h: get_tile_indexes"]}
{"id": "C143", "title": "Quantising to a power of two makes what follows exact", "statement": "`spoc_transform --quantize-xyz` moves every coordinate towards zero, by less than a step, to a multiple of the step, and changes nothing else. What is computed from the quantised coordinates afterwards stays on the same grid: differences are exact, quantising again does not change them, and `spoc_tool --subtract-min-xyz` moves the whole cloud by exactly the least coordinates.", "quantifier": "for all clouds, all steps, all disks and all valid argument lists", "why_tests_cant": "multiples of a step are products that are rounded, and the conversion to an integer cuts off a quotient that is rounded as well; whether that is harmless depends on every coordinate and on the step", "anchors": ["spoc/utils.h: quantize", "apps/transform/transform.h: get_quantize_op", "apps/tool/tool.h: subtract_min"]}
{"id": "C144", "title": "Subsampling keeps exactly one point of every cube", "statement": "Subsampling with resolution r keeps exactly one point of every non-empty cube of side r, where the cubes are counted from the least coordinates and computed without rounding. So every point has a kept one that is less than r away along each axis, and how many points are kept depends neither on the seed nor on the random order nor on the order of the points.", "quantifier": "for all clouds, resolutions, seeds, lawful shuffles, orders of the points, disks and valid argument lists", "why_tests_cant": "which cube a point belongs to is decided by a rounded difference and a rounded quotient, and the number of points that are kept is a property of the whole cloud, for every random order", "anchors": ["spoc/subsampling.h: get_subsample_indexes", "spoc/voxel.h: get_voxel_indexes", "apps/filter/filter.h: apply"]}
{"id": "C145", "title": "Classify a subsampled cloud, carry the classes back, subsample again: the classified points come back", "statement": "Subsample a cloud, give each point that is kept any class, and transfer the classes to the original cloud with the same resolution. The transfer succeeds and changes nothing but classes, and every point of the result has one of the classes that were given, so no point is left unclassified. Subsampling the result with the same seed returns exactly the classified points. The same holds for files: filter --subsample, tool --upsample-classifications, filter --subsample.", "quantifier": "for all clouds of equal numbers of extra fields, positive resolutions, seeds, lawful shuffles, classes, builds, disks and valid argument lists", "why_tests_cant": "a cloud can be classified in as many ways as there are maps from voxels to classes, and which points are kept depends on a random order", "anchors": ["spoc/subsampling.h: get_subsample_indexes", "apps/tool/tool.h: upsample_classifications", "apps/filter/filter.h: apply", "spoc/voxel.h: get_voxel_indexes"]}
{"id": "C146", "title": "Hexadecimal numbers, infinities and NaN can be given on the command line; every double can be given exactly", "statement": "A number that is written in hexadecimal (0x, digits in upper or lower case, point, binary exponent) is read completely and becomes a double nearest to it, so that it is exact if it has at most 53 significant bits and is in range. For every finite double, including both zeros and numbers with reduced precision, there is such a text that is read as exactly this double, and transform with this text does what the library function does with the double. The words inf, infinity and nan, in any case, with a sign or not, become the infinity with this sign and NaN; exactly the sign, the word and the parentheses after nan are read.", "quantifier": "for all hexadecimal numerals of any length, all finite doubles, all spellings of the words, all texts behind them, all clouds in uncompressed files and all builds", "why_tests_cant": "there are infinitely many numerals and 2^64 doubles; that rounding from any number of digits is to the nearest double is not visible in samples", "anchors": ["spoc/app_utils.h: consume_double", "apps/filter/filter_cmd.h: get_args", "apps/tile/tile_cmd.h: get_args", "apps/tool/tool_cmd.h: get_args"]}
{"id": "C147", "title": "Moving a cloud to the origin can be undone by adding its least coordinates", "statement": "If the least coordinates of a cloud are known, spoc_tool --subtract-min-xyz can be undone: spoc_transform with --add-x, --add-y and --add-z and these coordinates, written in hexadecimal, makes a cloud with the same points in the same order, in which every coordinate is the same number as before and all other fields, the extra fields and the WKT are unchanged. Such texts exist for every cloud.", "quantifier": "for all clouds of any size whose coordinates are multiples of one power of two below 2^52 times it, all numerals for the least coordinates, all file names, all worlds and all builds", "why_tests_cant": "the result depends on rounding in two operations and in reading the text; that no rounding happens for any cloud on a grid is not visible in samples, and for other clouds points are moved", "anchors": ["apps/tool/tool.h: subtract_min", "apps/transform/transform.h: get_add_x_op, get_add_y_op, get_add_z_op", "spoc/app_utils.h: consume_double"]}
{"id": "C148", "title": "A resolution coarser than the cloud keeps one point, a resolution finer than the spacing keeps all", "statement": "If a cloud extends along no axis further than a double that is less than the resolution, subsampling keeps exactly one of its points, without a seed the first one; this includes --subsample=inf, and holds for all finite coordinates in spite of rounding. If any two points are at least the resolution apart along some axis, all points are kept, and without a seed the cloud is unchanged.", "quantifier": "for all clouds of any size, all finite coordinates (second part: coordinates and resolution on a common grid of a power of two), all positive resolutions including infinity, all seeds and lawful shuffles, all builds", "why_tests_cant": "the first part needs that no difference and no quotient of any two of 2^64 doubles is rounded up to the next voxel; tests see a few clouds with well-behaved numbers", "anchors": ["spoc/voxel.h: get_voxel_index", "spoc/subsampling.h: get_subsample_indexes", "apps/filter/filter.cpp: main"]}
{"id": "C149", "title": "Clouds without negative zeros are filtered, moved and tiled in compressed files without loss", "statement": "A compressed file loses the sign of zeros in a column of zeros. If no coordinate of a cloud is a negative zero, nothing is lost: for every request, spoc_filter writes exactly the points that the options select, and spoc_tool --subtract-min-xy and --subtract-min-xyz write exactly the moved cloud and spoc_tile exactly the part of the cloud in each tile, into files that are read back as such and again have no negative zeros, so that this holds along any chain of such steps. Adding and subtracting never makes a negative zero of another number.", "quantifier": "for all files that can be read, uncompressed or compressed with columns below 4 GiB and without negative zeros, all filter requests, all file names, all worlds, all doubles including infinities and NaN, all builds", "why_tests_cant": "which columns become constant zero depends on the points that remain, and the sign of a zero from a subtraction on all pairs of doubles; a test compares a few files", "anchors": ["spoc/io.h: write_spoc_file_compressed", "apps/filter/filter.cpp: main", "apps/tool/tool.h: subtract_min"]}
{"id": "C150", "title": "Python and the applications see the same columns", "statement": "For a file that the applications can read, a Python program that calls readspocfile and one of getX, getY, getZ, getC, getP, getI, getR, getG, getB or getExtra gets exactly the numbers stored in that field of the points, in order; spoc_tool --get-field for the same field prints exactly these numbers, one in each line, doubles with 16 significant digits, leaves every file as it was and succeeds. A cloud that a Python program writes, if it survives writing and reading (C01, C02), is the cloud that the applications then find in that file.", "quantifier": "for all files that can be read, compressed or not, all fields including every extra field below 2^31 that all points have, all worlds, all command lines with that option and one operand, all combinations of builds of the module and of the application", "why_tests_cant": "two interfaces to the same data agree only if they agree for every file and every field; a test compares a few files", "anchors": ["spocpy/spocpy/spocpy.cpp: readspocfile, getX, getY, getZ, getC, getP, getI, getR, getG, getB, getExtra", "apps/tool/tool.h: get_field", "apps/tool/tool.cpp: main"]}
