# Design of the SPOC model and proofs

The subject is the C++ point-cloud library and tool set in `/repo`.
The Lean project in `/verif/lean` contains an executable model of the code and the
theorems listed in `MANIFEST.json`.  `properties.jsonl` has the properties in words.
`seeded/LOG.jsonl` has the wrong programs the theorems were tested against.

## Layout

| directory | content |
|---|---|
| `Verif/Base` | things the C++ code relies on: outcomes, bytes, streams, IEEE-754 doubles, decimal text, parallel loops |
| `Verif/Model` | the model of the code, one file per header / application, every definition cites file and lines |
| `Verif/Spec` | small specifications that do not use the model's helper functions |
| `Verif/Proofs` | helper lemmas |
| `Verif/Props` | the property theorems, one file per area, with examples that show the hypotheses are satisfiable |
| `Verif/Tests` | the project's own tests, transcribed and evaluated with the model; checks of the doubles against the machine |

## How C++ is modelled

* **Outcomes.** A C++ function that can fail returns `Res α`: `ok a`, `throw msg`
  (an exception), `ub why` (undefined behaviour), `abort` (a failed `assert` in a
  debug build) or `hang` (a loop that does not terminate).  Undefined behaviour is
  never silently given a value.  `assert` / `REQUIRE` are modelled for both build
  types through a parameter `Build` (`debug`, `release`): `REQUIRE` throws and `assert` aborts in a debug build, both do nothing in a
  release build.
* **Streams.** An input stream is a list of remaining bytes plus a `good` flag.
  A short read delivers the available bytes, leaves the rest of the target memory
  as it was and makes the stream bad; reads from a bad stream deliver nothing.
  An output stream is the list of bytes written so far; output errors (disk full) are not modelled.
  `Out α` is a computation that writes: its bytes are those written before it ended in whatever way.
* **Integers.** `uint8_t` … `uint64_t`, `size_t` are Lean's `UInt8` … `UInt64` (or `Nat` where
  the code only uses them as container indexes; sizes of real containers are below 2^64).
  Narrowing conversions are explicit.  Conversions of out-of-range doubles to integers are `ub`.
* **Memory layout.** x86-64, little endian, `double` is IEEE-754 binary64, the nine
  plain fields of a point record are stored without padding in 40 bytes.  `&v[0]` of an empty vector, which the
  code computes but does not dereference, is taken to be harmless.
* **Doubles.** `F64` is a 64-bit pattern.  Comparison, addition, subtraction,
  multiplication, division, square root and the conversions to integers are
  computed exactly and rounded to nearest, ties to even (`Verif/Base/F64.lean`).  Every finite
  double is an integer multiple of 2^-1074, which is how its value is represented.
  `Verif/Proofs/F64*.lean` and `Nearest.lean` prove that the rounding is correct (nearest, ties to even) and monotone.
  The definitions were also compared with the hardware through Lean's `Float` on random
  and special operands (a test, not a proof).  NaN results are one fixed NaN: payload
  and sign of computed NaNs are not modelled.  Fused multiply-add contraction (`-march=native` on some machines) is not modelled.
* **Transcendental functions** (`sin`, `cos`) are parameters; nothing is assumed about them
  unless a theorem states it.
* **zlib** is a parameter with one assumption, `Zlib.Correct`: inflating what deflate produced gives the
  input back, and deflate's output is not empty.
* **Random numbers and shuffles** are parameters: theorems hold for every random sequence and every permutation.
  The shuffle and the generators of libstdc++ are also modelled (`Model/TestUtils`, `Model/Noise`): `TestUtils.shuffle_lawful` proves that this shuffle meets the assumption, and C94 is about this generator.
  `std::sort` of doubles is a parameter too (any function that returns a sorted permutation), since the order of `0.0` and `-0.0` is not determined.
* **unordered_map / unordered_set** are modelled as association lists / lists searched with the key's `==`;
  where the code iterates over them the theorem is proved for every iteration order or the result is sorted afterwards.
  `std::map` with string keys is a list of entries sorted by key.
* **OpenMP.** `Verif/Base/Par.lean` models a parallel loop as an arbitrary interleaving of the
  steps of its iterations over shared memory.
* **Text.** Strings are lists of characters.  `stoi`, `atoi`, `strtol`, `strtod`, `stod`, `atof`, `operator>>` and `operator<<` of integers and doubles are
  modelled for the "C" locale after glibc / libstdc++ (`Base/Text`, `Base/Strtod`, `Base/TextIo`, `Base/Fixed`): decimal and hexadecimal numerals, `inf`, `nan`,
  correct rounding, the sets of characters that `num_get` collects.
* **Command lines.** `getopt_long` of glibc is modelled (`Base/Getopt`): abbreviations, short options, clusters, arguments in the same or the next word, permutation of
  operands, `--`; `POSIXLY_CORRECT` is taken to be unset.  The models of single applications take the list of options with their arguments; `Model/Main` connects both.
  An exception ends `main` with status -1.
* **File system.**  A function from names to files with content and two permission bits, and a predicate for which names a file can be created.  Different names are different
  files (no links); messages to the standard error have a model of their own (`Messages`).

## How the model was compared with the code

The model was written by reading the code; the code was not run.  `Verif/Tests` has evaluated checks (`#guard`), which are tests of the model and not proofs, and no
theorem depends on them:

* `Tests/Unit`, `Tests/Apps`: the tests of `/repo/tests/unit` and `/repo/tests/app` that compute values, with the model's functions and the random generator and the shuffle of
  libstdc++ (`Model/TestUtils`, `Model/Noise`).  What the tests `VERIFY` holds of the model.  Left out: those that only check that nothing crashes.
* `Tests/Scripts`: the scripts of `/repo/tests/integration`, run with the models of the programs on random files (the test data are not in the repository).
* `Tests/Machine`: addition, subtraction, multiplication, division, square root, comparisons, conversions, `atof` and fixed-point output of the model are compared with the
  doubles of the machine (Lean's `Float`) on thousands of special and random values.

No test disagrees with the model.

## Which code is modelled

| code | model |
|---|---|
| `spoc/header.h`, `spoc/version.h`, `spoc/point_record.h`, `spoc/file.h`, `spoc/io.h` | `Header`, `PointRecord`, `AllZero`, `File`, `FileOps`, `FileSteps`, `Io` |
| `spoc/compression.h` | `Compression` (vectors), `Stream` (streams) |
| `spoc/point.h`, `spoc/extent.h`, `spoc/utils.h`, `spoc/affine.h`, `spoc/voxel.h`, `spoc/subsampling.h` | `Point`, `Extent`, `ExtentArea`, `Utils`, `Voxel`, `Subsampling` |
| `spoc/radius_search.h`, all OpenMP loops | `RadiusSearch`, `Loops` |
| `spoc/app_utils.h` 79-183, `spoc/json.h`, `spoc/asprs.h` | `AppUtils`, `Info` |
| `spoc/app_utils.h` 18-77, `spoc/cmd.h`, the option tables and `main` of all applications | `Cmd`, `Main` |
| `apps/compress`, `apps/decompress`, `apps/srs`, `examples/noop.cpp` | `Apps` |
| `examples/stream_averaging.cpp`, `examples/generate_infinite_points.cpp` | `Examples` |
| `spoc/test_utils.h`, the random numbers of libstdc++ that it and `apps/transform` use | `TestUtils`, `Noise` |
| `spoc/benchmark_utils.h`, `benchmarks/` | `Benchmarks` |
| `spocpy/spocpy/spocpy.cpp` (what the functions do, without `pybind11` itself) | `Python` |
| `apps/*/*.h`, `apps/*/*.cpp`: everything that is written to `std::clog` and `std::cerr` (not getopt's own message about unknown options, nor those of failed assertions) | `Messages` |
| `spocpy/examples/fileio.py`, `spocpy/examples/timings.py` (the output; `glob` and the clock are parameters) | `PyExamples` |
| `spocpy/examples/point_cloud_viewer.py`: `update_figure` and the state it works on (Dash, numpy and plotly as described there) | `Viewer` |
| `apps/transform`, `apps/filter`, `apps/merge`, `apps/tile`, `apps/diff`, `apps/tool`, `apps/info` | one file each, including option handling |
| not modelled: `spocpy/setup.py`, which builds and installs the extension | |

## Trusted base

* The Lean kernel and the axioms `propext`, `Classical.choice`, `Quot.sound`; the section "Axioms" lists what each theorem depends on.  There are
  no other axioms, no `sorry`, no `native_decide`.
* The faithfulness of the model: it was written by reading the code, it is not extracted from it.
* The assumptions on zlib, the memory layout and the C++ standard library functions listed above.
* Not modelled: memory exhaustion, output errors, the operating system, `pybind11`.

## Disagreements between code, documentation and properties

Everything below is either proved (the theorem is named) or was noticed while modelling.

Input and output
* With 124 to 255 extra fields a record is larger than the 1024-byte staging buffer, the reader computes 0 records per buffer and never ends (`c01_hang`).
* A coordinate column of zeros is stored as empty when compressed, so `-0.0` comes back as `0.0` (`c02_negative_zero_lost`, `c03_negative_zero_lost`).
* A header whose `wkt` member is assigned after construction is written with a truncated length (`c05_header_truncated`).
* Truncated files are read without complaint, missing bytes being zeros or stale buffer contents (`c07_truncation_unnoticed`).
* Compressing 4 GiB in one call loses the data because zlib's `avail_in` is 32 bits wide (`c10_4gib_lost`).
* More than 255 extra fields are accepted by the API but the header stores the number in 8 bits (`c13_extra_fields_truncated`); `set-field e300` produces such a file.
* A file with no points loses the number of extra fields when it is rewritten; a compression byte other than 0 or 1 becomes 1 (statement of `c64_rewrite_canonical`).
* transform and the noop example read records with the unchecked reader: a truncated input is completed with zeros.  They work for 124 and more extra fields.

Geometry and voxels
* The boxes of a radius search are placed anew for each radius; with two neighbouring floating point numbers as radii the larger one can find fewer points (`c133_lost`).
* NaN coordinates: extents depend on the order of the points (`c15_nan`, `c16_nan_order`), crop keeps NaN points (`c18_nan_kept`).
* `rescale` divides 0 by 0 for a flat dimension and converts the NaN to an integer (`c21_flat_undefined`, `c21_single_point`); restoring can be many grid steps off (`c21_not_one_step`).
* Subsampling a subsampled cloud can drop more points, because the grid starts at the cloud's own minimum (`c25_not_idempotent`).
* Radius search misses candidates at the rim whose voxel is not adjacent because of rounding (`c28_not_reported`).
* The random neighbour selector gives the first non-empty voxel one index too many and the last one too few (`c30_not_uniform`).
* `affine::add` takes the offset by reference; called with an element of the cloud itself the result depends on the schedule (`c17_add_aliased`).

transform
* `replace-not` on p, i, r, g, b assigns the class (`c31_replace_not_touches_class`, `c33_replace_not_wrong`).
* `replace` values from 2^31 are rejected although fields are unsigned (`c33_large_values_rejected`).
* The eight noise options are in the option table and in the help text but are rejected (`c35_noise_rejected`); `-a` is missing from the short options.
* `quantize-xyz` converts `x / precision` to `int`: undefined from 2^31 on (`c38_out_of_range`) and for precision 0 (`c38_zero_precision`), which is not checked; it is not idempotent (`c38_not_idempotent`),
  can move a coordinate away from zero (`c38_away_from_zero`) or by a full step (`c38_full_step`).
* `set` converts a double to the unsigned type of the field without a range check (undefined behaviour outside).
* An index of an extra field that does not exist is noticed only at the first point, after header and earlier output have been written; commands are parsed after the header has been written.
* `copy-field` with one name aborts in a debug build and throws in a release build.

filter, merge, tile
* `--keep-class ground` is accepted and means class 0 (`c39_not_a_number`); `--remove-coords "x > 1abc"` is accepted (`c40_trailing_text_accepted`).
* merge: an input without points makes the sum of the areas infinite or NaN, which suppresses the warning about the area.
* tile: the extent is enlarged by 2^-23 to keep the maximum inside, which is lost in rounding for extents beyond 2^29, giving n+1 columns (`c45_one_too_many`); a file without points is undefined behaviour
  (`c43_empty_undefined`); a file that exists and is writable but not readable is overwritten without `--force` (`c46_unreadable_overwritten`); tiles written before the existing file is found stay;
  `--tiles 0` divides by zero (infinite tile size).

tool
* get-field prints 16 significant digits, 17 are needed (`c47_lossy`: 0.1 + 0.2 becomes 0.3); NaN and infinities cannot be read back (`c47_not_finite`).
* set-field rejects a text whose last number is not followed by white space (`c48_last_line_rejected`), accepts text that is not a number as zeros (`c48_not_a_number_accepted`) and surplus numbers
  (`c48_surplus_accepted`), and cuts off large integers (`c48_cut_off`).
* subtract-min can make distinct coordinates equal (`c50_ties`) and overflow (`c50_infinite`); the mean after recenter is not exactly zero (`c51_not_zero`) and can overflow (`c51_overflow`).
* upsample: low-resolution points below the minimum of the high-resolution file are undefined behaviour (`c52_outside_undefined`); `--resolution nan` passes the check of the application.

diff, info
* A file with a NaN differs from itself (`c55_nan_differs`).  A named extra field that one file does not have is ignored (`c56_missing_ignored`), so that the comparison of a field is not transitive (`c55_fields_not_transitive`); an unknown field name behind a difference is not reported (`c56_unknown_unnoticed`).
  header-only and data-only together mean data-only (`c54_two_modes`).
* Classes from 2^31 on are labelled as negative numbers (`c57_large_label`), the last nine are called "unclassified" (`c58_large_names`, `c58_wrong_name`).
* LAS 1.4 calls class 0 "Created, never classified" and class 1 "Unclassified"; the code calls them "unclassified" and "unknown".
* The JSON printer does not know `uint32_t`, so class and point id are printed as `unknown type: j` in every file (`c60_class_and_id_missing`), although the man page shows numbers.
* JSON strings are in single quotes and not escaped; a quote in the spatial reference makes the text unreadable (`c60_quote_unreadable`); `nan` and `inf` are printed bare (`c60_not_finite`).
* With a NaN first, minimum and maximum are NaN (`c59_nan_range`); quartiles with a NaN are undefined behaviour (`c59_nan_undefined`).
* The extent density of a flat cloud is infinite (`c66_flat`).
* Man page: `-h` is documented as the toggle for the header, but is help; `--metric-info` is documented as `-l`, but is `-m`; quartiles are documented as the default, but are off; the names `npoints` and `wkt` differ from `total_points` and `ogc_wkt`.
* Field names: text after the number is ignored (`c61_trailing_text_accepted`), numbers from 2^31 are rejected (`c61_large_index_rejected`).

Command lines and files
* transform opens (and empties) its output before it reads the input.  With the same name for both, every file is replaced by an empty cloud and the application reports success (`c72_transform_in_place`):
  the empty file is read as an empty cloud because a header has a valid signature before it is read.  An input that is not a SPOC file leaves an empty output file (`c71_transform_truncates`).
  The other applications open the output only when everything has been computed.
* srs notices that the text does not fit into the header only when it has emptied the output file; in place, the points are lost (`c71_srs_truncates`).
* `spoc_diff --version` fails because the file names are checked first (`c70_diff_version`).
* transform shows `-a` in its help text but rejects it (`c67_seed_letter`).
* Man page of tool: `--random-seed`, `-r` does not exist (`c77_tool_seed`); the letter `-f` of `--field-filename` is not documented.
* Man page of filter: `--remove-coords` is shown without its argument (`c77_remove_coords`).
* Man page of info: `-l` for the metrics is the letter of the classifications (`c77_metric_letter`); the example with `-h` asks for help (`c77_info_example`).

Streams
* `decompress (is, os)` accepts a compressed stream that was cut off and writes the beginning of the content (`c80_truncation_unnoticed`).
* `compress (is, os, level)` tests only for the end of the stream: on a stream that has failed it never ends (`c80_failed_stream_hangs`).
* `stream_averaging` does not notice the end of its input: it goes on up to the number of points of the header, and counts missing points as points at the origin (`c81_end_unnoticed`, `c81_wrong_mean`).

Python
* `getPointRecord`, `setPointRecord` (release) and `getExtra` with an index behind the end do not raise `IndexError`: undefined behaviour, or the interpreter is terminated by an assertion (`c83_index_undefined`).
* `record.extra.append (…)` works on a copy and changes nothing (`c83_append_lost`).
* A text given as bytes that are no UTF-8 can be set but not obtained (`c83_text_not_utf8`); the same holds for files with such a text.
* `writespocfile` notices a text that is too long only after it has emptied the file (`c82_failed_write_empties`).

Robustness
* Every application that reads uncompressed files loops forever on a file that announces more than 123 extra fields and at least one point (`c85_endless`).
* `spoc_tool --get-field=e5` reads behind the end of the extra fields if there are fewer than six (`c85_get_field_extra`); `--get-field=` fails an assertion in the debug build (`c85_empty_argument`).
* `spoc_info` converts NaN to an integer if a coordinate is NaN (`c85_info_nan`); `spoc_filter --subsample` with a tiny size (`c85_subsample`), `spoc_tile --tile-size` with an empty cloud (`c85_tile_empty`) and `spoc_transform --set=c,-1` (`c85_set_negative`) convert numbers that do not fit.
* `get_center` can return a point outside of the extent of the cloud (`c86_outside`).

Numbers
* Texts that are no numbers are accepted by filter, tile and tool: `--keep-class=ground` keeps class 0 (`c89_words_are_class_zero`), `--keep-class=4294967298` keeps class 2 (`c89_wrapped_class`), `--tile-size=ten` is ignored (`c89_tile_word`), `--tile-size=1e999` is infinite (`c89_infinite_tile_size`).
* transform stops reading at the first character that does not belong to the number: `--add-x=1,5` adds 1 (`c89_decimal_comma`).  Numbers below 2^-1022 are rejected (`c89_subnormal_rejected`).

Merge
* An empty file among the inputs has an infinite area, (lowest − max)², so that merge never warns about areas (`c91_empty_file`, `c91_empty_file_example`).

Tests
* `tests/unit/test_affine.cpp` calls `test_rotate2`, which does not exist (the test is `test_transform_rotate2`), so that it cannot be compiled.
* `tests/unit/test_voxel.cpp` never calls `test_get_voxel_indexes_w_indexes`; the test of upsampling in `tests/app/test_tool.cpp` checks the wrong file (`l` instead of `h`).
* In the scripts of `tests/integration` a line `! command` never fails the script, since `set -e` ignores it.
* `get_area` of the box of no points is +infinity, `get_volume` is -infinity (`c93_nothing`).

Noise
* `--gaussian-noise-x` and `--gaussian-noise-y` (and the uniform ones), given to `apply` as separate commands, start from the same seed: every point gets proportional offsets in x and y, so that the noise lies on a line (`c94_separate_commands`).  The test of Gaussian noise uses exactly these commands and does not notice.
* `uniform-noise` with `1.0,2.0,3.0` (as in `test_transform_uniform_noise`) uses the first number for all coordinates.
* The option `random-seed` of transform has no effect, since the noise commands are rejected (`c94_seed_without_effect`).
* transform `--quantize-xyz` of a coordinate that is NaN or infinite is undefined behaviour: the quotient is converted to `int` (`c97_quantize_undefined`).
Running twice
* `recenter-xy` moves a cloud that it has recentred (`c106_recenter`), `quantize-xyz` moves what it has quantized (`c106_quantize`), `subtract-min-xy` changes its own result if a coordinate was infinite (`c106_infinite`), and filter can remove more points or reorder them when it is run again (`c106_subsample`, `c106_seed`).
set and copy-field
* transform `--set` converts a `double` to the type of the field without a check: -1, or 65536 for an intensity, is undefined behaviour (`c107_set_out_of_range`); numbers from 2^53 on are rounded, and 2^64 - 1 cannot be set at all (`c107_set_large`).  `--copy-field` to a narrower field drops the upper digits without a message (`c107_copy_loses`).  When a command fails, the header is already in the output.
Repeated options
* merge `--quiet` is a toggle: given twice, it is not quiet (`c108_merge_warnings`).  All switches of info toggle, too, those of the other applications do not.
File objects
* `/repo/spoc/file.h` line 230 documents that the records are empty upon return of `move_point_records ()`; the function only returns an rvalue reference, and the records stay in the file unless the caller moves them out (the model's `moveOut` includes that move).
Helpers of the tests
* `generate_tmp_filename` is documented to deliver a unique name; the clock is cut to 32 bits, and the name is the same again after 2^32 ticks (`c115_name_not_unique`).
* `generate_points` draws two random numbers in the arguments of one call of `std::ldexp`; which of the two comes first is unspecified in C++, and so are the points (`c115_points_unspecified`).
* `about_equal` compares `int (round (a * 1000))`: it rejects 0.0005 and the adjacent number (`c115_about_equal_rejects`), and it is undefined behaviour for numbers from 2147483.648 on (`c115_about_equal_undefined`), which map coordinates (northings in metres) exceed.
* `distance` adds the squares in the order x, y, z; because of rounding the distance of two points can change in the last bit when the axes are exchanged, and a radius search at this very distance finds the pair in one order only (`c116_search_prefers_an_axis`).
* `get_tile_size` adds `std::numeric_limits<float>::epsilon ()` (2^-23) to the size of the cloud, whatever its unit: a cloud that measures 2^-30 is not divided when two tiles across are asked for (`c117_number_of_tiles`).  `distance` squares differences without scaling; below about 1e-162 they become zero, and the radius search takes points for neighbours that are not within the radius (`c117_search`).
* `timer` uses `std::chrono::system_clock`, not `steady_clock`: if the clock is set back, `elapsed_ms` is negative (`c121_set_back`).
* `set_point_record` accepts only the number of extra fields that the file has, also in a file with a single record, where `set_point_records` accepts another one (`c120_more_fields`).  If moving changed records back in is refused, the file has lost its records (`c120_refused`).
* The viewer divides by the range of the elevations: a flat cloud, a single point, or an empty cloud has no colors by elevation and an exception is raised (`c123_flat`, `c123_empty`).  Classes from 28 on and segments from 256 on raise an exception (`c123_class`, `c123_segment`).  Its function `update_figure` looks at the slider only if the dropdown is unchanged: after loading the page again the slider shows 2 and the points keep the old size (`c123_reload`); it remembers a choice before it knows that the choice works (`c123_failed_choice`).
* In the viewer some classes have the same color and cannot be told apart: 8, 12 and 22; 16 and 18; 24 and 26 (`c123_shared`).
* `diff --verbose --reverse` says "The files are the same" for different files and "different" for the same files: the message is chosen by the reversed status (`c125_diff_reversed`).
* A comment in `tool.h` says that upsampling counts "the number of high resolution point records that get assigned a classification"; it counts assignments. Two low-resolution points in one voxel are counted twice: the message can say "5 of 4 point records were assigned" (`c125_five_of_four`), and "2 of 2" though one of the two points was not assigned, so that the question whether the file is the right one is not asked (`c125_two_of_two`). The question has no end of line.
* Recentering depends on the order of the points: the coordinates are added one after the other with rounding (`c130_recenter`).
* The Python example `fileio.py` calls the number of characters of the spatial reference a number of bytes: two bytes that are one character are shown as 1 (`c135_bytes`). A spatial reference that is not UTF-8 stops it with an exception at the third line (`c135_not_utf8`).
* Clouds without points: `info` shows `nan` for two densities (`c136_density`); `tile` with a tile size in x is undefined behaviour for every size (`c136_tile_undefined`), while it succeeds and writes nothing if only the number of tiles is given (`c136_tile`); `tool --upsample-classifications` to a cloud without points is undefined behaviour (`c136_upsample`).
* Tiles and voxels are computed from rounded quotients: with tiles of 0.3, a point that belongs to column 5 is put into column 6 (`c137_column_false`), and a tile that is tiled again with the same size is cut into two (`c137_cut_again`).
* A resolution three times as large can keep a point that the finer one leaves out, because of rounding (`c138_rounding`).
* A radius search can list a point that is not within the radius, because the computed distance is rounded down (`c139_beyond`).
* `--upsample-classifications` can carry a class nearly twice the resolution: a low-resolution point below the minimum of the high-resolution cloud is put into its first voxel, since the quotient is truncated towards zero (`c140_border`).
* The center of a cloud depends on the order of its points, since the running sums are rounded (`c141_order`).
* Subtracting the minimum can bring points together that were apart, so that `--unique-xyz` keeps fewer points afterwards (`c142_ties`).

## Properties

What is modelled and how it is proved.  "Negation" means that the property as stated is false of the code and that a concrete counterexample is proved next to the strongest `_partial` theorem; the
theorem names and what is missing are in `MANIFEST.json`.  None of the properties had to be given up as not expressible.

| property | model and specification | proof |
|---|---|---|
| C01 | `Io.writeFileUncompressed`, `readFileUncompressed` with the chunk loop over the 1024-byte buffer, over arbitrary trailing bytes | the reader on `header ++ records ++ rest` by induction over the chunks; byte lemma `ofLe (leBytes n x) = x`; negation: the loop with 0 records per buffer does not end |
| C02 | columns as byte vectors, all-zero shortcut, zlib parameter | transposition of records and columns is inverse; negation with a concrete file for `-0.0`, and a theorem for "equal up to the sign of zeros" without the condition |
| C03 | `Apps.compress`, `Apps.decompress` | composition of C01 and C02 |
| C04 | header constructor, reader, writer | byte lemma |
| C05 | header constructor, `getHeader`, writers | decision logic: the outcome is `throw` with no bytes written |
| C06 | readers with trailing bytes | induction over the list of files with C01 / C02 for arbitrary trailing bytes |
| C07 | readers on prefixes | records that lie completely within the prefix are returned as written; negation |
| C08 | `Header.read` called by every reader | decision logic |
| C09 | readers on arbitrary bytes; buffer accesses outside the buffer are `ub` | invariant of the loops; outcome is never `ub` |
| C10 | deflate / inflate chunk loops with an abstract stream state | induction over what is left; negation at 2^32 bytes |
| C11, C12 | all mutating operations of `spoc_file`, by their results (`File`) and statement by statement on a memory (`FileSteps`) | invariant by induction over operation histories; refinement to lists of records; the statements of each operation agree with its result, and an exception finds the objects unchanged |
| C13 | `getHeader` | calculation; negation above 255 |
| C14 | comparison operators, `hash_combine` | case analysis; meaning of `==` stated through values of doubles |
| C15, C16 | min / max folds | induction over the cloud; order of doubles is total without NaN; negations |
| C17 | every OpenMP loop as a list of iterations made of atomic reads and writes | generic theorem: iterations that touch disjoint memory give the sequential result under every interleaving, instantiated for each loop |
| C18 | `crop` | equals `List.filter` of the specification's "inside" |
| C19 | `operator<` | lexicographic order from the order of doubles |
| C20 | encodings | byte lemma |
| C21 | `rescale` and its inverse over `F64` | error analysis of the rounded operations (`Proofs/Rescale`), explicit bound; negations with concrete clouds |
| C22 | voxel index | monotone rounding gives nonnegative quotients and monotone indexes |
| C23-C26 | subsampling, unique-xyz | loop invariant over the visited indexes for every permutation; C25, C26 negations |
| C27-C30 | radius search with the selector's tables | invariant of the selector for every random sequence; near voxels by error analysis; the computed distance against the Euclidean one, with a correct integer square root; counting of random values |
| C31-C36 | transform commands, streaming loop, option table | decision logic per command, induction over the stream; C35 over the finite option table |
| C37 | rotations over `F64` with `sin`, `cos` of given accuracy | exact algebra over the reals plus error bounds for each rounded operation |
| C38 | quantise over `F64`, the transform application | error analysis; exactness for precisions with at most 22 significant bits; five negations |
| C39, C40, C65 | filter | `select` equals `List.filter`; C65 composes all stages of `main` |
| C41, C42 | merge including log and option handling | induction over the list of files |
| C43-C46 | tile: map, names, loop over a file-system model | partition lemma for the map, injectivity of padded decimal names, monotone rounding for columns and rows |
| C47, C48 | get-field / set-field over the text model | the text of a number is read back as the nearest double (`Proofs/Decimal`, `TextIo`); negations |
| C49-C51 | resize-extra, subtract-min, recenter | frame conditions, monotone rounding, error bounds |
| C52, C53 | upsample | last-write lemma for the loop; combination with C23 |
| C54-C56 | diff including exit status | decision logic over columns; negations |
| C57, C58 | class histogram, names | counting lemma for the association list; table by evaluation of the finite table, other classes by the shape of the label |
| C59 | summaries as JSON and as text | sortedness and permutation give the order statistics |
| C60 | `json.h` compact and pretty printer, whole `document` | a reader for the printed syntax (`Spec.Tree`) is shown to read back the printed tree; numbers are related to the values by `Spec.Numeral` |
| C61 | field-name parsing | string lemmas; negations |
| C62 | srs | frame condition with C01 / C02 |
| C63 | noop example | induction over the stream |
| C64 | rewriting | composition of the I/O theorems |
| C66 | densities | cardinality of the set of cells; the division is correctly rounded (`Spec.Nearest`) |
| C67-C70 | `getopt_long` (`Base/Getopt`), option tables, switches and help texts of all ten applications (`Model/Cmd`) | the parser is shown to produce the options of a specification of written forms (`Spec/Cmd`), by induction over the words; finite facts about the tables by evaluation |
| C71-C73 | all ten applications from command line and file system to file system, standard output and status (`Model/Main`) | what is read can be written (`Proofs/Main`: the writers fail only for a text of more than 65535 bytes or records of unequal length); case analysis of `main`; negations for transform and srs |
| C74 | text output of info | each line is related to the value by `Spec.Numeral`; case analysis of the switches |
| C75 | command line and all steps of the filter application | what `get_args` collects is computed for every list of options; each step is related to its library function; failure of subsampling is the only failure |
| C76 | all applications on a file system | composition of the application properties with `Model/Main`, the parser and the round trips; two program runs in a row for compress / decompress and tile / merge |
| C77 | option tables, parser; the manual pages as a table (`Spec/Manual`) | every entry is found in the option table (finite tables, by evaluation), then C67 for all arguments and surroundings |
| C78 | `get_args` of info | induction over the options with the parity of the counts |
| C79 | all applications on a file system | case analysis of `main` of each application, by induction over the inputs where there are many |
| C80 | stream versions of compress / decompress with zlib as a machine called piece by piece (`Model/Stream`, promises in `Spec/Stream`) | invariant over the reachable states of the machine; termination by the finite output; a toy codec that keeps the promises (`Proofs/StreamToy`) |
| C81 | the two streaming examples (`Model/Examples`); random numbers and clock are parameters | induction over the records; the error bound of C51 |
| C82 | the module functions of `spocpy.cpp` on the file system of the tile model (`Model/Python`); the conversions of pybind11 are trusted | `survives_roundtrip`, the UTF-8 lemmas of Lean's library |
| C83 | the classes of `spocpy.cpp` as numbered objects, a program as the list of its calls (`Model/Python`) | case analysis of the calls, induction over the calls |
| C84 | the writers of `io.h` (`Model/Io`) | each step of the writers returns normally on a consistent file |
| C85 | `main` of the ten applications (`Model/Main`, `Model/Cmd`) with everything they call | each function is shown to return or throw, given that its arguments agree in the number of extra fields; that invariant holds for every file that is read and is kept by every command; the reader ends unless a record is longer than its buffer; the options that can be undefined are safe if the numbers they are given fit the fields, the grid or the tiles |
| C86 | `get_center` (`Model/Utils`) | reduced to the error analysis of C51: the error of the sequential sum by induction, then the division; witnesses for the three exceptions |
| C87 | `write_spoc_file`, `read_spoc_file`, headers and records | the layout is written down independently from the tables of the README (`Spec/Format`: data types, rows, bytes by division and remainder); the writer is shown to produce it, the reader to decode it for any block that inflates to the column |
| C88 | `has_all_zero_*` (`Model/AllZero`), `all_zero`, `compress_field` | each test is characterised; with the layout of C87 the empty blocks of a compressed file are characterised by the same conditions |
| C89 | `strtod`, `std::stod`, `atof`, `atoi` (`Base/Strtod`, `Base/Text`), `consume_double`, `get_args` of transform, filter, tile, tool | numerals are a specification of their own (`Spec/Numeral`: text and real value); the scanner is shown to read exactly the numeral, and the double is nearest to its value (C35); range errors are excluded by a comparison in units of 2^-1074; the theorems about the applications (C36, C75, C43) are then instantiated |
| C90 | `get_args`, name of the output file (`Tile.outputName`, `Tile.stem`, `Tile.extension`, `Tile.padded`) | the path is given as directory, base name, extension, and the name is calculated; the last `prefix` and `digits` count (induction over the options) |
| C91 | `append`, the areas in `merge.cpp` `main` (`Merge.main`, `Merge.areaLog`) | the exact log of a run (`merge_run`); smallest and largest coordinate as reals (`Spec.Area`); rounding of differences, products, sums and the quotient (`Proofs.MergeArea`); the empty file by computing with infinity |
| C92 | all functions that take `Build`; `Main.*` | a relation `Agree` between the two builds, closed under bind, map, fold and conditionals, proved for every function (`Proofs.Builds`, `Proofs.BuildsMain`); equality where the conditions of the checks hold (`Proofs.BuildsSame`) |
| C93 | `Extent.area`, `Extent.volume` | the limits are attained (`Spans`), each operation is the nearest double (`volume_err`), rounding is monotone (`sub_mono`, `mul_mono`) |
| C94 | `Noise.uniform3`, `Noise.gauss3` (minstd_rand0 and the distributions of libstdc++), `Transform.apply`, `Transform.getArgs` | monotonicity of rounding bounds the offset, doubling is exact (`Proofs.Noise`); the engine is invertible, numbers drawn in different states are at least 2^-33 apart, more than all rounding errors (`canonical_gap`). Gaussian noise: 16807 is a primitive root modulo the prime 2147483647 (`Proofs.Period`, with Lucas' test), so that the engine comes by an accepted point (`polar_ends`); a point that is accepted has a squared distance between 2^-106 and 1, which bounds the logarithm and the root (`Proofs.Gauss`) |
| C95 | `Io.readFile`, `Header.read`, `IStream` | the layout is stated in `Spec.Format.Holds`; a stream that is good at the end was good all the time, so every read got all its bytes (`Proofs.Accept`); prefixes are compared through `c95_rest_untouched` |
| C96 | `Tool.getField`, `Tool.setField`, `Main.tool`, `Main.toolFiles` | the words printed are the words read (`readValues_all`, `read_show`), they are ASCII (`Proofs.Ascii`), so the bytes in the file are the text; C01 for the output |
| C97 | `Transform.parseCommand`, `Transform.apply`, `F64.add`, `F64.mul`, `F64.div` | the rules for sums and products are stated in `Spec.IsSum` and `Spec.IsProduct`; each command keeps what is not finite (`command_stay`), induction over the commands |
| C98 | `Subsampling.subsamplePoints`, `Voxel.getIndexes`, filter on the file system | C23 gives a kept point in the same voxel; two coordinates with the same rounded-down rounded quotient are close (`same_cell_close`, from the error bound of C44); the number of points is bounded by the number of index triples |
| C99 | `Info.process` with everything it calls; tile, merge and info on the file system | minimum, maximum and the sorted vector are determined by the multiset of values if equal values are identical; `std::map` entries are sorted by key (`ascending_mapOf`), so the counts determine the list; the extent is a minimum and a maximum; numbers of different voxels are cardinalities of sets; tile and merge permute the points (`c76_tile_merge`) |
| C100 | merge on the file system, with the standard output redirected into a file | C41 gives the bytes that each command writes (`merge_bytes`); the clouds are equal by a calculation on lists (`mergedCloud_stages`); the round trip of C01/C02 for the intermediate file |
| C101 | the commands add-x/y/z and scale-x/y/z of transform, twice in one run; strtod | error of one rounding (`add_val`) and the fact that the second sum is a double nearest to the exact one while the original coordinate is a double too; on a grid (`OnGrid`) sums and products with powers of two are exact (`rfv_dyadic`); numerals by C89, the opposite numeral gives the opposite double (`ofScaled_opposite`) |
| C102 | all commands of the transform application, `apply`, the command line | every operation is shown to be local: what it does to the fields it changes depends only on the fields it looks at (`Local`, `local_changes`); local operations that spare each other commute (`local_commute`), hence neighbours in the command list can be exchanged (`apply_swap`), hence all permutations by induction |
| C103 | the main functions of filter and merge on a file system | a sequence of runs leaves the filtered clouds and nothing else changed (`afterAll_makes`, by induction over the runs); filtering commutes with building the merged cloud (`mergedCloud_filtered`); what is written is determined by the cloud |
| C104 | the main functions of transform and merge on a file system, all commands | operations that neither look at nor change the id are blind to it and to the number of the point (`Blind`, `blind_command`); what the commands mean does not depend on the number of extra fields in the header (`parseCommand_extra`), so that all files get the same operations; carrying them out commutes with building the merged cloud (`mergedPoints_forall₂`) |
| C105 | the main functions of filter, tool, srs, merge, diff, info, tile and transform on a file system | every step on the cloud with another flag is the step on the cloud, with that flag put on the result (`Proofs/Flag.lean`); for info the word of the flag is the only difference in all four output formats, because the place of an entry of a `std::map` does not depend on its value (`mapOf_middle`, `info_word`); `c105_transform` is the exception |
| C106 | the main functions of filter, srs, tool and transform, reading the standard input and writing the standard output | `Settled`: the run on the bytes that the run has written writes the same bytes. filter: the points that are left pass every step (`filterSteps_again`). tool: the least coordinate after subtracting is a zero, and subtracting a zero of either sign from a finite double gives it back (`subtractMin_twice`). transform: every operation depends only on what it reads, and what it reads has not been written since (`plan_again`). The restrictions have witnesses |
| C107 | `Transform.setOp`, `copyFieldOp`, `apply`, `main`, the conversions of `double` to the unsigned types, `consumeDouble` with the modelled `std::stod` | `Truncated v k` (Spec/Truncated) says that `k` is `v` without its fraction; `F64.truncated_iff` connects it with the conversion, `Transform.setField_spec` and `copyFieldOp_spec` describe one record, `apply_image`, `apply_fails` the file. The result is stated with `SameExcept` and `Field.get`; the witnesses come from the monotonicity of rounding |
| C108 | the `main` functions of all ten applications with `getopt_long` (`Name.run`) | A table (`kinds`) says of every option what repetition means, `SameRequest` that two lists of options ask for the same by this table. Each `getArgs` is reduced by induction to a closed form that depends only on presence, parity, last value, or the subsequence of commands (`*_final`). For filter the classes only enter through membership (`filter_process_congr`) |
| C109 | `search` and the functions built on it, `Pt.distance` | `F64.sub_mag_comm`: x - y and y - x differ at most in sign, for all doubles including NaN and infinities, so the computed distance is symmetric (`Pt.distance_comm`); belonging to the 27 voxels is symmetric (`mem27_symm`). An uncut list is the filtered pool of candidates (`uncut_eq`). The smaller maximum by induction over the loop (`loop_take`) |
| C110 | the `main` functions of filter and transform on standard input and output | `looksAt` lists the fields a request looks at; `filterSteps_rel`: two clouds whose points correspond and agree in these fields are filtered in corresponding ways, through all five steps (the index functions only see the coordinates, `indexes_of_pts`, `unique_of_pts`). `ops_spare` from the frame of each command (`local_command`), `applyAll_rel` because no command without noise looks at the place |
| C111 | get_voxel_indexes, get_subsample_indexes, the filter application, get_tile_indexes | `trunc_scale`: above the subnormal numbers the rounding of a quotient does not depend on a power of two in the divisor (`roundRaw_scale`), and below them both integer parts are zero, so the index in the coarser grid is the index in the finer grid divided by 2^k; `dedupe_coarser`: keeping the first point of each class of a coarser relation keeps a part of what the finer relation keeps |
| C112 | the info, merge, filter and tile applications with the file system | the printed class section is a list of lines (`hasLine_lines`) whose numbers are `List.count` (`c57_histogram`); the labels of different classes differ; then the counts follow the points through `c76_merge_partial`, `c76_filter_partial` and `c76_tile` (`pointsOf_merged`, `tiles_perm`) |
| C113 | voxels, subsampling, radius search and tiles with the arithmetic of doubles; filter and transform as applications | doubles are handled as integer multiples of 2^-1074: a displacement adds one integer to every coordinate (`cloudOff_of_displaced`), the bounds of the cloud move along (`CloudOff.extent`), so all differences are equal up to the sign of zero, which no later operation can see (`div_same`, `toU64_same`, `mul_self_same`); for the applications the exchange of filter and transform of C110 is generalised (`filter_transform_of`, `filterSteps_like`) |
| C114 | subsampling, unique-xyz, the filter application | both keep lists without duplicates of keys (voxels, places) with the same elements, hence of the same length (`length_of_mem`); the same places give the same bounding box up to the sign of zero and so the same voxels (`extent_off`, `voxels_off`); the application goes through its steps (`c114_steps`, `filter_count`) |
| C115 | all of `test_utils.h`, with libstdc++'s `minstd_rand0`, `uniform_int_distribution`, `uniform_real_distribution` and `normal_distribution` | the engine has full period (`Noise.reach`), so that a rejection loop meets an acceptable number within one period (`uniformInt_spec`); ranges follow from `canonical_range` and the monotony of rounding; induction over the number of records |
| C116 | extents, voxels, subsampling, unique-xyz, centre, crop, quantize, tiles | all of them work coordinate by coordinate (`coord_grow_min`, `getIndex_seq`); three computations with one common way of failing may be exchanged (`seq3_reorder`); renaming the voxels does not change what is kept (`steps_rename`); tiles via `c44_same_tile`; the exception by `decide +kernel` |
| C117 | voxels, subsampling, unique-xyz, extents, tiles, with IEEE-754 arithmetic | a difference of doubles is exact below the normal numbers, so rounding commutes with powers of two there as well (`rfv_pow2`); a quotient depends only on the ratio of its operands (`div_ratio`); the corners of the box are made of coordinates of points (`MadeOf`), so that what is known of differences of points applies to them; exceptions by `decide +kernel` |
| C118 | two runs of the whole filter program (command line, reading, steps, writing) joined by standard input, against one run | the requests are compared by a small specification (`stepsOf`, `InOrder`, `Together`); the steps compose (`steps_compose`) and the file between the runs is read back as it was written (`readable_survives`); limits by `decide +kernel` |
| C119 | the mains of tile, filter, transform and merge on a file system, one run after the other | the tiles hold the points of each number (C76) and together a permutation of all points; filter and map commute with concatenation and respect permutations; points at the same place have the same tile number (also zeros of different sign), so the first one at each place is the same in the tile and in the cloud; a command's result for a point does not depend on its position or on the cloud (C110), so the parallel loop succeeds on the cloud exactly if it does on all tiles; the limit by evaluation |
| C120 | get/set_point_record(s), move_point_records, push_back and the loops of benchmark_spoc_file over them, with the file that is left after an exception | induction over the records with the part already changed as invariant; the check of the extra fields is `Uniform`; the differing cases by evaluation |
| C121 | the class timer, with the readings of the clock as parameters | induction over the events from the end; conversion to double is exact below 2^53 (`F64.ofInt_val`); the negation by evaluation at a clock that is set back |
| C122 | the four functions and the main of benchmark_io on a file system | the round trips of C01 and C02 with the opening and closing of the file in between |
| C123 | update_figure with the dictionary control, the figure as size and colors, the page as the values of the controls, Python's indexing and int, np.amin and np.amax | the index is a rounded quotient: monotone rounding gives the range, the ends and the order, multiplying by 8 is exact, the error bound from the error of two subtractions and one division; invariant over the events for the controls; the negations by evaluation, and for flat clouds 0/0 |
| C124 | the ten applications once more, for what they write to clog and cerr (a log of messages with an outcome), next to the model of their results | the arguments are a fold over the options in which verbose changes only its own field, which only the messages read; each step of an application says nothing if not verbose; the files that are set are those named before; the outcomes of both models agree by going through both |
| C125 | the messages of diff and of upsample-classifications, on top of the models of both | the status of diff is that of C54 and the message is a function of it; the count is the sum over the low-resolution points of the number of points in their voxel, which for distinct voxels is the number of points that have one; the negations by evaluation of whole runs |
| C126 | upsample_classifications and the main of tool, files to files | the transfer is characterised as: it succeeds exactly if the clouds are valid and the voxel indexes defined, and gives each point the last class of its voxel (upsample_iff); transferring twice is transferring the concatenation of the marks; a permutation keeps the extent and the set of marks; negations by evaluation |
| C127 | all ten applications on a file system, and their messages | for each application: in two file systems that agree on the files concerned all reads and all attempts to open an output give the same; for tile by induction over the tiles; arguments that name files come from the options by induction over them |
| C128 | sequences of runs of all applications | from C127: a run does not change what concerns an independent one; two runs commute, and any permutation is a sequence of exchanges of neighbours |
| C129 | all applications that read clouds | relabelling the cloud commutes with every function of the library and the applications that makes a cloud (Proofs/Label), then file to file; transform from its characterisation on written clouds |
| C130 | filter, tool, transform, tile, merge | both runs step by step: filters and pointwise changes commute with permutations, box and tile numbers of finite points do not depend on the order; negations by concrete clouds |
| C131 | filter, tool, transform, tile | relational: both runs step by step, with an arbitrary relation between corresponding points (Proofs/Related.lean) |
| C132 | tile, transform, tool, srs | tile sizes and numbers depend on x and y only; both orders of the runs are computed from the characterisations of the applications on written clouds and give the same tile |
| C133 | radius_search for two radii and two random sequences | what is reported is near in the Euclidean sense (C27), what is near is reported (C28); the rounding errors of both fit into the factor; the counterexample is computed for every random sequence |
| C134 | merge, filter, unique_xyz, subsample | with seed 0 the first point of a place or voxel is kept (C24, C26); points at taken places leave the extent and therefore the numbering of the voxels alone, and come after the point that is kept |
| C135 | the examples fileio.py and timings.py | a file that can be read has a header that describes it (C09); the lines are compared with what a reader expects, exceptions end the output where they happen |
| C136 | filter, tool, transform, merge, tile, info on a cloud without points | every loop ends at once; the extent is the initial one, whose width is minus infinity, so that tile sizes and tile numbers are computed exactly |
| C137 | get_tile_indexes, get_voxel_indexes, main of tile | on a grid the differences are exact, and the rounding error of the quotient is smaller than its distance from the next integer; for all coordinates by the error bound of C44 |
| C138 | get_voxel_indexes, get_subsample_indexes, get_tile_indexes, filter | the indexes are exact (C137), and the exact index in the coarser grid is the whole quotient of the index in the finer one |
| C139 | point distance, get_voxel_indexes, radius_search | differences, squares and sums are exact on a grid; the rounded root compares with the radius as the exact one does (an integer below 2^50 and the next one have roots that rounding keeps apart); voxel indexes are exact (C137), so points within the radius are in adjacent voxels |
| C140 | `upsample` (`tool.h`), `Voxel.getIndexesIn`, and the `main` of spoc_tool | the class written comes from the last low-resolution point with the same index; the index is a rounded, truncated quotient, so equal indexes bound the distance; truncation below the origin gives the factor two; `c140_border` is the witness against one resolution |
| C141 | `Utils.getCenter` (`utils.h`), `recenter` (`tool.h`), the `main` of spoc_tool | induction over the points: each partial sum is a multiple of the unit below 2^53 units, hence exact and never minus zero; so the sum is that of the reals, which does not depend on the order, and the quotient is the double nearest to the mean |
| C142 | `subtractMin` (`tool.h`), `Voxel.getIndexes`, `Subsampling`, `RadiusSearch.search`, `Tile.getTileIndexes`, the `main` of spoc_tool and spoc_filter | subtracting the minimum twice is subtracting it once, so voxel indexes agree bit by bit for all finite coordinates; differences on a grid are exact, so the moved cloud is `Displaced` from the original; the groups then agree by C113; `c142_ties` is the witness for coordinates off the grid |
| C143 | `Utils.quantize`, `quantizeOp`, `subtractMin`, the `main` of spoc_transform and spoc_tool, `strtod` | a quotient by a power of two is exact, so the result is a multiple of the step and C142 applies to the file that is written; `c143_tenth` is the witness for another step |
| C144 | `Subsampling.subsamplePoints`, `Voxel.getIndexes`, the `main` of spoc_filter | on a grid the voxel is the exact cube (C137) and one point per voxel is kept (C23); the number of kept points is the number of different cubes, which does not depend on the order; `c144_shared` is the witness off the grid |
| C145 | `Tool.upsample`, `Subsampling.subsamplePoints`, the `main` of spoc_filter and spoc_tool | from C53 every voxel has exactly one classified point, and the transfer keeps coordinates, so that the same points are selected again with the classes they were given; the runs are chained with C76 |
| C146 | `Text.strtod`, `Text.stod`, `Text.atof`, the `main` of spoc_transform | `Spec.HexNumeral` says how numbers are written and what they mean; the scanner is shown to find digits, point and exponent of every numeral; rounding is to nearest as in C89; for every double the numeral of its units of 2^-1074 is given |
| C147 | `Tool.subtractMin`, the `main` of spoc_transform, `Text.stod` | subtracting and adding are exact on the grid (integers times a power of two); the numerals are read exactly by C146; the `main` of spoc_transform is followed as in C146; `c147_lost` evaluates a cloud of two points |
| C148 | `Voxel.getIndex`, `Voxel.getIndexes`, `Subsampling.subsampleIndexes`, the `main` of spoc_filter | a smaller magnitude is at most 1 - 2^-53 times as large (from the encoding of doubles), so the rounded quotient is below one; then C23 and C24; the second part from C144 by counting; the limits by evaluation |
| C149 | `Io.writeFile` and `Io.readFile` for compressed files, the `main` of spoc_filter and spoc_tool, `F64.add` | a sum is a negative zero only if both terms are (rounding an integer number of units gives zero only for zero); what is written survives by C02; then C76 |
| C150 | `Python.run` with `readspocfile` and the getters, the `main` of spoc_tool with --get-field | both read the file alike in every build (C92); then each getter and `Tool.getField` are the same map over the points |

## Axioms

Output of `#print axioms` for the theorems of `MANIFEST.json` (all in namespace `Spoc.Props`).

* **none**: `c15_nan`, `c15_infinite`, `c16_nan_order`, `c18_nan_kept`, `c19_nan`, `c37_axis`, `c50_infinite`, `c51_overflow`, `c86_outside`, `c86_overflow`, `c86_empty`, `c93_nothing`, `c94_infinite`, `c115_equal_seeds`, `c149_scale`
* **propext**: `c14_equality_meaning`, `c14_point_equality_meaning`, `c14_equivalence`, `c14_point_equivalence`, `c14_extent_equality`, `c18_own_extent_nan`, `c21_not_one_step`, `c22_exact_not_enough`, `c23_undefined`, `c25_not_idempotent`, `c26_seeded_order`, `c28_incomplete`, `c29_overflow`, `c34_no_command_rejected`, `c35_options_partial`, `c38_not_idempotent`, `c38_away_from_zero`, `c38_full_step`, `c43_empty_undefined`, `c45_one_too_many`, `c50_ties`, `c52_outside_undefined`, `c57_large_label`, `c59_nan_range`, `c59_nan_undefined`, `c63_noop_rejects_compressed`, `c81_wrong_mean`, `c88_extra_undefined`, `c109_cut_not_mutual`, `c115_about_equal_rejects`, `c115_about_equal_undefined`, `c115_points_unspecified`, `c115_name_not_unique`, `c120_push_back`, `c120_more_fields`, `c120_refused`, `c123_empty`, `c123_reload`, `c123_failed_choice`, `c126_order_matters`, `c126_itself_changes`, `c134_seed`, `c134_nan`, `c137_cut_again`, `c142_ties`, `c143_tenth`, `c145_smaller`
* **Quot.sound**: `c11_no_ub`
* **propext, Quot.sound**: `c07_truncation_unnoticed`, `c08_wrong_writer`, `c10_chunk_loop`, `c12_push_back`, `c12_set_point_record`, `c12_set_point_record_ok`, `c12_frame`, `c12_inconsistent_refused`, `c13_header_describes_file_partial`, `c13_extra_fields_truncated`, `c14_hash`, `c14_point_hash`, `c15_extent_bounds`, `c16_total_extent`, `c16_order_independent`, `c18_crop_partial`, `c18_idempotent`, `c18_own_extent_partial`, `c20_short_ub`, `c24_stable`, `c38_zero_precision`, `c39_partition`, `c40_removes`, `c40_rejects_partial`, `c43_one_tile`, `c56_missing_ignored`, `c58_named`, `c67_forms_partial`, `c68_end_of_options`, `c70_shown_accepted_partial`, `c80_bad_level`, `c80_failed_stream_hangs`, `c81_rejects_compressed`, `c81_end_unnoticed`, `c84_inconsistent_refused`, `c87_writes`, `c87_writes_record`, `c87_size`, `c88_decides`, `c88_extra`, `c92_write`, `c92_library`, `c94_equal_seeds`, `c109_smaller_maximum`, `c120_all_at_once`, `c120_moved`, `c120_status`, `c121_elapsed`, `c121_stands`, `c123_rgb`, `c123_class`, `c123_shared`, `c136_tile_undefined`, `c147_lost`
* **propext, Classical.choice, Quot.sound**: `c01_uncompressed_roundtrip_partial`, `c01_hang`, `c02_compressed_roundtrip_partial`, `c02_compressed_roundtrip_values`, `c02_negative_zero_lost`, `c03_compress_decompress_partial`, `c03_values`, `c03_accepts_uncompressed`, `c03_negative_zero_lost`, `c04_header_roundtrip`, `c04_constructed_header_roundtrip`, `c05_long_wkt_refused_partial`, `c05_header_truncated`, `c06_concatenated_files_partial`, `c07_truncated_prefix_partial`, `c08_foreign_rejected`, `c09_reader_safe`, `c10_compress_roundtrip_partial`, `c10_4gib_lost`, `c11_consistent`, `c11_exception_unchanged`, `c11_statements`, `c12_resize`, `c14_header_equality`, `c15_extent_tight_partial`, `c17_add_axis`, `c17_scale_axis`, `c17_add_partial`, `c17_rotate`, `c17_quantize`, `c17_voxel_indexes`, `c17_output`, `c17_get_voxel_indexes`, `c17_radius_search`, `c17_compress_columns`, `c17_fill`, `c17_same_as_sequential`, `c17_add_aliased`, `c19_strict_weak_order`, `c20_point`, `c20_extent`, `c20_points`, `c21_roundtrip_partial`, `c21_flat_undefined`, `c21_single_point`, `c22_voxel_indexes`, `c22_oversized`, `c23_one_per_voxel`, `c24_subsequence`, `c25_idempotent_partial`, `c26_unique`, `c26_first`, `c26_twice_partial`, `c27_sound`, `c27_defined`, `c27_indexes`, `c27_all_neighbors`, `c27_all`, `c27_get_neighbors`, `c27_distance`, `c27_euclidean`, `c28_complete_partial`, `c28_all_neighbors_partial`, `c28_all_partial`, `c28_get_neighbors_partial`, `c28_euclidean_partial`, `c28_complete_adjacent_partial`, `c28_not_reported`, `c29_enumerates_partial`, `c29_candidates`, `c29_voxels`, `c30_distribution_partial`, `c30_not_uniform`, `c31_touches_only_named_partial`, `c31_replace_not_touches_class`, `c32_header_order_count`, `c32_no_commands`, `c33_replace_partial`, `c33_replace_not_partial`, `c33_replace_not_wrong`, `c33_large_values_rejected`, `c34_compose`, `c34_several_runs`, `c35_noise_rejected`, `c36_library_and_app_agree`, `c36_quantize_agrees`, `c37_exact_rotation_partial`, `c37_axis_distance_partial`, `c37_distance_partial`, `c37_angle_partial`, `c37_rotate_back_partial`, `c38_quantise_partial`, `c38_file_partial`, `c38_idempotent_partial`, `c38_power_of_two_partial`, `c38_out_of_range`, `c39_keep_remove`, `c39_app_keep`, `c39_app_remove`, `c39_not_a_number`, `c40_app`, `c40_trailing_text_accepted`, `c41_merge`, `c41_nothing_lost`, `c42_all_or_nothing`, `c42_mismatch_writes_nothing`, `c42_too_few_files`, `c42_needs_all_inputs`, `c43_partition`, `c43_tiles_written`, `c43_tile_read_back`, `c44_same_tile`, `c44_grid_accurate`, `c45_at_most_n_partial`, `c45_app`, `c46_names`, `c46_untouched_partial`, `c46_unreadable_overwritten`, `c47_roundtrip_partial`, `c47_app_partial`, `c47_lossy`, `c47_not_finite`, `c48_integers_partial`, `c48_coordinates_partial`, `c48_too_few_integers`, `c48_too_few_coordinates`, `c48_last_line_rejected`, `c48_not_a_number_accepted`, `c48_cut_off`, `c48_surplus_accepted`, `c49_resize`, `c49_restore`, `c49_app`, `c50_subtract_min`, `c50_c51_app`, `c51_recenter_partial`, `c51_exact_partial`, `c51_not_zero`, `c52_upsample`, `c52_app`, `c53_subsample_upsample`, `c54_full`, `c54_header_only`, `c54_data_only`, `c54_app`, `c54_success`, `c54_two_modes`, `c55_self_partial`, `c55_self_header`, `c55_symmetric`, `c55_transitive`, `c55_fields_not_transitive`, `c55_nan_differs`, `c56_fields_partial`, `c56_app_partial`, `c56_unknown_partial`, `c56_unknown_unnoticed`, `c57_histogram`, `c57_labels_partial`, `c57_c58_app`, `c58_names_partial`, `c58_large_names`, `c58_wrong_name`, `c59_json_partial`, `c59_text_partial`, `c59_printed_partial`, `c60_header_partial`, `c60_fields_partial`, `c60_classes_partial`, `c60_metrics_partial`, `c60_succeeds`, `c60_class_and_id_missing`, `c60_not_finite`, `c60_quote_unreadable`, `c61_field_names_accepted`, `c61_names_partial`, `c61_trailing_text_accepted`, `c61_large_index_rejected`, `c62_set_srs_partial`, `c62_long_srs_rejected`, `c63_noop_identity`, `c64_rewrite_canonical`, `c65_filter_only_removes`, `c66_occupied_partial`, `c66_extent_partial`, `c66_flat`, `c67_same_effect_partial`, `c67_seed_letter`, `c68_any_order`, `c69_wrong_option`, `c70_help_first`, `c70_version_partial`, `c70_help_text`, `c70_diff_version`, `c71_failure_keeps_files_partial`, `c71_srs_truncates`, `c71_transform_truncates`, `c72_in_place_partial`, `c72_transform_in_place`, `c73_redirection`, `c74_text_report`, `c75_filter_steps`, `c76_compress_partial`, `c76_decompress_partial`, `c76_there_and_back_partial`, `c76_filter_partial`, `c76_srs_partial`, `c76_show_srs`, `c76_merge_partial`, `c76_diff`, `c76_info`, `c76_tool`, `c76_transform`, `c76_upsample`, `c76_tile`, `c76_tile_partial`, `c76_tile_merge`, `c76_tile_merge_partial`, `c77_manual_partial`, `c77_complete`, `c77_tool_seed`, `c77_metric_letter`, `c77_remove_coords`, `c77_info_example`, `c78_switches`, `c78_same_report`, `c79_missing_input`, `c79_unwritable_output`, `c79_number_of_names`, `c80_compress_partial`, `c80_decompress`, `c80_roundtrip_partial`, `c80_same_format`, `c80_damage_reported`, `c80_truncation_unnoticed`, `c81_average_partial`, `c81_pipe_partial`, `c82_write_read_partial`, `c82_made_in_python_partial`, `c82_cannot_open`, `c82_failed_write_empties`, `c83_frame`, `c83_exception`, `c83_consistent`, `c83_set_get`, `c83_rejects`, `c83_columns`, `c83_attributes`, `c83_safe_partial`, `c83_append_lost`, `c83_index_undefined`, `c83_text_not_utf8`, `c84_write_succeeds`, `c85_five_partial`, `c85_decompress`, `c85_filter_partial`, `c85_tool_partial`, `c85_transform_partial`, `c85_info_partial`, `c85_info_safe_switches`, `c85_tile_partial`, `c85_filter_fits_partial`, `c85_transform_fits_partial`, `c85_tool_fits_partial`, `c85_tile_fits_partial`, `c85_endless`, `c85_get_field_extra`, `c85_empty_argument`, `c85_subsample`, `c85_info_nan`, `c85_tile_empty`, `c85_set_negative`, `c85_quantize`, `c85_tile_small`, `c85_upsample_outside`, `c85_upsample`, `c86_center_partial`, `c87_reads_partial`, `c87_writes_compressed`, `c87_reads_compressed`, `c88_costs_nothing`, `c89_transform`, `c89_set`, `c89_filter`, `c89_tile_size`, `c89_tile_sizes`, `c89_tool`, `c89_words_are_class_zero`, `c89_wrapped_class`, `c89_decimal_comma`, `c89_subnormal_rejected`, `c89_infinite_tile_size`, `c89_tile_word`, `c90_from_file`, `c90_prefix`, `c90_from_stdin`, `c90_stdin_needs_prefix`, `c91_quiet`, `c91_area_partial`, `c91_no_area`, `c91_empty_file`, `c91_empty_file_example`, `c92_stops_or_same`, `c92_same`, `c92_filter`, `c92_tile`, `c92_read`, `c92_differ`, `c93_area`, `c93_volume`, `c93_more_points`, `c93_flat`, `c94_uniform`, `c94_gauss`, `c94_engine`, `c94_different_seeds`, `c94_seed_without_effect`, `c94_separate_commands`, `c95_accepted_iff`, `c95_rest_untouched`, `c95_truncation_seen`, `c95_truncation_of_written_seen`, `c95_wrong_column_refused`, `c96_carry_partial`, `c96_files_partial`, `c97_translate`, `c97_scale`, `c97_stays`, `c97_quantize_undefined`, `c98_subsample`, `c98_filter`, `c99_order_partial`, `c99_without_summary_partial`, `c99_tile_merge_partial`, `c99_zero_signs`, `c100_same_bytes_partial`, `c100_uncompressed`, `c100_lossless`, `c100_same_points_partial`, `c100_ids_differ`, `c101_translate_partial`, `c101_scale_partial`, `c101_lost`, `c101_rounded`, `c101_negative_zero`, `c101_scale_rounded`, `c102_any_order`, `c102_options`, `c102_replace_not`, `c102_same_field`, `c103_filter_merge_partial`, `c103_uncompressed`, `c103_lossless`, `c103_negative_zero`, `c103_unique`, `c103_subsample`, `c104_transform_merge`, `c104_success`, `c104_copy_id`, `c104_set_id`, `c105_filter_tool`, `c105_srs`, `c105_show_srs`, `c105_merge`, `c105_diff`, `c105_diff_header`, `c105_info`, `c105_info_header`, `c105_tile`, `c105_transform`, `c106_filter_partial`, `c106_filter_uncompressed`, `c106_filter_lossless`, `c106_srs_uncompressed`, `c106_srs_lossless`, `c106_srs_partial`, `c106_tool_partial`, `c106_transform_partial`, `c106_subsample`, `c106_seed`, `c106_recenter`, `c106_infinite`, `c106_quantize`, `c106_replace_order`, `c107_set`, `c107_set_whole`, `c107_set_out_of_range`, `c107_set_large`, `c107_copy`, `c107_copy_faithful`, `c107_copy_loses`, `c108_same_request`, `c108_merge_warnings`, `c108_exchange`, `c108_overridden`, `c108_twice`, `c108_one_command`, `c109_mutual_partial`, `c109_all_mutual_partial`, `c109_own_neighbour_partial`, `c109_chance`, `c110_filter_transform`, `c110_same_field`, `c110_replace_not`, `c111_subsample`, `c111_filter`, `c111_filter_lossless`, `c111_tiles`, `c111_finer_keeps_less`, `c111_two_steps`, `c112_report`, `c112_merge`, `c112_filter`, `c112_tile`, `c113_voxels`, `c113_subsample`, `c113_unique`, `c113_search`, `c113_tiles`, `c113_filter`, `c113_translate`, `c113_rounded`, `c114_subsample`, `c114_unique`, `c114_filter`, `c114_condition`, `c115_records`, `c115_file`, `c115_different_seeds`, `c115_integers`, `c115_about_equal`, `c115_points`, `c115_cloud`, `c115_gauss_cloud`, `c115_name`, `c116_extent`, `c116_voxels`, `c116_subsample`, `c116_subsampled_points`, `c116_unique`, `c116_center`, `c116_crop`, `c116_quantize`, `c116_tiles`, `c116_tile_size`, `c116_search_prefers_an_axis`, `c117_voxels`, `c117_subsample`, `c117_unique`, `c117_extent`, `c117_tiles`, `c117_number_of_tiles`, `c117_search`, `c117_decimal`, `c118_pipeline`, `c118_swap`, `c118_keep_twice`, `c118_two_conditions`, `c118_unique_first`, `c119_filter`, `c119_unique`, `c119_transform`, `c119_subsample`, `c120_agree`, `c120_one_by_one`, `c120_consistent`, `c120_program`, `c120_main`, `c121_accurate_partial`, `c121_set_back`, `c122_uncompressed`, `c122_compressed`, `c122_program`, `c122_main`, `c122_refused`, `c122_unreadable`, `c123_elevation_partial`, `c123_segment`, `c123_colours`, `c123_size_partial`, `c123_flat`, `c124_verbose`, `c124_prepend_long`, `c124_prepend_letter`, `c124_outcome`, `c124_silent`, `c124_warnings`, `c124_merge_log`, `c124_named`, `c125_diff_partial`, `c125_diff_reversed`, `c125_upsample_partial`, `c125_subsampled`, `c125_five_of_four`, `c125_two_of_two`, `c125_merge_warnings`, `c125_merge`, `c126_again`, `c126_two_clouds`, `c126_fields`, `c126_itself`, `c126_order`, `c126_points_order`, `c126_files_again`, `c126_files_two`, `c126_files_merged`, `c127_reads`, `c127_messages`, `c127_writes`, `c127_kept`, `c127_inputs`, `c128_undisturbed`, `c128_two`, `c128_any_order`, `c128_as_alone`, `c128_messages`, `c129_filter_tool`, `c129_upsample`, `c129_transform`, `c129_merge`, `c129_tile`, `c129_diff`, `c129_info`, `c129_srs_filter`, `c130_filter_partial`, `c130_tool_partial`, `c130_transform_partial`, `c130_tile_partial`, `c130_merge`, `c130_recenter`, `c130_zero_signs`, `c130_unique`, `c130_subsample`, `c130_noise`, `c131_filter`, `c131_tool`, `c131_upsample`, `c131_get_field`, `c131_transform`, `c131_tile`, `c132_transform`, `c132_resize`, `c132_srs`, `c132_moved`, `c133_larger_partial`, `c133_count_partial`, `c133_grid_partial`, `c133_lost`, `c134_unique`, `c134_subsample`, `c134_steps`, `c134_filter`, `c134_itself`, `c135_shown`, `c135_ends`, `c135_stops`, `c135_timings`, `c135_bytes_partial`, `c135_not_utf8`, `c135_bytes`, `c136_filter`, `c136_tool`, `c136_tool_succeeds`, `c136_tool_makes`, `c136_transform`, `c136_merge`, `c136_tile`, `c136_info`, `c136_density`, `c136_upsample`, `c137_column_partial`, `c137_tiles_partial`, `c137_narrow_partial`, `c137_again_partial`, `c137_app_partial`, `c137_voxels_partial`, `c137_width`, `c137_at_most_four`, `c137_column_false`, `c138_subsample_partial`, `c138_tiles_partial`, `c138_filter_partial`, `c138_rounding`, `c139_exact_partial`, `c139_all_partial`, `c139_beyond`, `c140_near_partial`, `c140_twice`, `c140_grid_partial`, `c140_app`, `c140_border`, `c141_center_partial`, `c141_order_partial`, `c141_tool_partial`, `c141_order`, `c142_moved_partial`, `c142_groups_partial`, `c142_voxels`, `c142_tool_partial`, `c142_filter_partial`, `c143_quantize_partial`, `c143_difference_partial`, `c143_transform_partial`, `c143_then_origin_partial`, `c144_cubes_partial`, `c144_count_partial`, `c144_filter_partial`, `c144_shared`, `c145_back`, `c145_files_partial`, `c146_hex`, `c146_every`, `c146_infinity`, `c146_nan`, `c146_transform`, `c146_transform_infinity`, `c147_undone_partial`, `c147_numerals_partial`, `c148_one`, `c148_filter`, `c148_all_partial`, `c148_rounded`, `c148_merged`, `c149_filter`, `c149_move`, `c149_tiles`, `c149_sum`, `c150_columns`, `c150_read`, `c150_written`
