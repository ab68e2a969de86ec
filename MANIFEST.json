{
 "claims": [
  {
   "property": "C01",
   "status": "proved",
   "theorems": [
    "Verif.Props.Fei.C01_dense_exact"
   ],
   "note": "Out-of-range events: IndexError (pure-Python indexing)."
  },
  {
   "property": "C02",
   "status": "proved",
   "theorems": [
    "Verif.Props.Fei.C02_sum_frames"
   ],
   "note": ""
  },
  {
   "property": "C03",
   "status": "proved",
   "theorems": [
    "Verif.Props.Fei.C03_sparse_eq_dense",
    "Verif.Props.Fei.C03_sparse_eq_dense_sum",
    "Verif.Props.Fei.C03_empty_range_differs"
   ],
   "note": "Non-empty frame range as stated; the third theorem shows why the range must be non-empty."
  },
  {
   "property": "C04",
   "status": "proved",
   "theorems": [
    "Verif.Props.Fei.C04_frame_slice"
   ],
   "note": ""
  },
  {
   "property": "C05",
   "status": "proved",
   "theorems": [
    "Verif.Props.Fei.C05_array_stream_roundtrip"
   ],
   "note": ""
  },
  {
   "property": "C06",
   "status": "proved",
   "theorems": [
    "Verif.Props.Distributed.C06_tiling",
    "Verif.Props.Distributed.C06_assembles"
   ],
   "note": "dask normalize_chunks and map_blocks are assumed as stated in Model/Distributed.lean."
  },
  {
   "property": "C07",
   "status": "partial",
   "theorems": [
    "Verif.Props.Distributed.C07_positions_partial",
    "Verif.Props.Distributed.C07_fails_for_single_position_chunks"
   ],
   "note": "Proved for chunkings without length-one chunks; false otherwise (TypeError or block with an axis missing), shown by the second theorem."
  },
  {
   "property": "C08",
   "status": "proved",
   "theorems": [
    "Verif.Props.Rgb.C08_rgb_roundtrip",
    "Verif.Props.Rgb.C08_regular_roundtrip",
    "Verif.Props.Rgb.C08_other_unchanged",
    "Verif.Props.Rgb.C08_rejects",
    "Verif.Props.Rgb.C08_lazy_regular_fails"
   ],
   "note": "In-memory arrays; the last theorem records that dask arrays, which the docstring allows, raise AttributeError in regular_array2rgbx."
  },
  {
   "property": "C09",
   "status": "proved",
   "theorems": [
    "Verif.Props.HeaderArray.C09_header_roundtrip",
    "Verif.Props.HeaderArray.C09_update",
    "Verif.Props.HeaderArray.C09_many_records_rejected"
   ],
   "note": ""
  },
  {
   "property": "C10",
   "status": "proved",
   "theorems": [
    "Verif.Props.Dictionary.C10_set_item",
    "Verif.Props.Dictionary.C10_add_node",
    "Verif.Props.Dictionary.C10_history",
    "Verif.Props.Dictionary.C10_value_in_the_way"
   ],
   "note": "box.Box is external; keys without dots."
  },
  {
   "property": "C11",
   "status": "partial",
   "theorems": [
    "Verif.Props.Dictionary.C11_dump_partial",
    "Verif.Props.Dictionary.C11_flat_partial",
    "Verif.Props.Dictionary.C11_fails_custom_separators"
   ],
   "note": "False for custom separators in nested dictionaries: the recursive call drops them."
  },
  {
   "property": "C12",
   "status": "proved",
   "theorems": [
    "Verif.Props.Path.C12_incremental_filename",
    "Verif.Props.Path.C12_append2pathname"
   ],
   "note": "Python's recursion limit appears as the fuel argument."
  },
  {
   "property": "C13",
   "status": "partial",
   "theorems": [
    "Verif.Props.Path.C13_overwrite_needs_yes",
    "Verif.Props.Path.C13_existing",
    "Verif.Props.Path.C13_answers_partial",
    "Verif.Props.Path.C13_fails_upper_case_at_second_prompt"
   ],
   "note": "False for upper-case answers after the first prompt."
  },
  {
   "property": "C14",
   "status": "partial",
   "theorems": [
    "Verif.Props.DateTime.C14_roundtrip_partial",
    "Verif.Props.DateTime.C14_whole_days_partial",
    "Verif.Props.DateTime.C14_one_day_late_before_origin",
    "Verif.Props.DateTime.C14_fails_before_origin"
   ],
   "note": "Exact rational arithmetic. False before 1899-12-30: one day late."
  },
  {
   "property": "C15",
   "status": "proved",
   "theorems": [
    "Verif.Props.Npy.C15_npy_offset",
    "Verif.Props.Npy.C15_other_versions",
    "Verif.Props.Npy.C15_short_file"
   ],
   "note": ""
  },
  {
   "property": "C16",
   "status": "proved",
   "theorems": [
    "Verif.Props.Readfile.C16_integer_readers",
    "Verif.Props.Readfile.C16_read_char"
   ],
   "note": ""
  },
  {
   "property": "C51",
   "status": "partial",
   "theorems": [
    "Verif.Props.Deprecated.C51_deprecated_partial",
    "Verif.Props.Deprecated.C51_fails_replacement_without_removal",
    "Verif.Props.Deprecated.C51_endianess_always_fails"
   ],
   "note": "False for a keyword with a replacement and no removal version: KeyError."
  },
  {
   "property": "C17",
   "status": "partial",
   "theorems": [
    "Verif.Props.Ragged.C17_flatten_unflatten_partial",
    "Verif.Props.Ragged.C17_shapes",
    "Verif.Props.Ragged.C17_save_load_partial",
    "Verif.Props.Ragged.C17_fails_empty_text_cell",
    "Verif.Props.Ragged.C17_fails_mixed_types"
   ],
   "note": "False for empty arrays of strings in zspy (come back as float arrays); in a file, cells of another numeric type than the first are cast."
  },
  {
   "property": "C19",
   "status": "partial",
   "theorems": [
    "Verif.Props.SignalChunks.C19_valid_chunks_partial",
    "Verif.Props.SignalChunks.C19_fails_empty_signal",
    "Verif.Props.SignalChunks.C19_fails_empty_navigation"
   ],
   "note": "Proved for arrays without empty axes; false with an empty axis. The floating-point root is a parameter assumed not to exceed the real root."
  },
  {
   "property": "C20",
   "status": "partial",
   "theorems": [
    "Verif.Props.StoredModels.C20_read",
    "Verif.Props.StoredModels.C20_write_read_partial",
    "Verif.Props.StoredModels.C20_last_write_claims_all",
    "Verif.Props.StoredModels.C20_fails_two_signals_with_models"
   ],
   "note": "Reading is proved for all files; writing several signals with models into one file reassigns all models to the last signal."
  },
  {
   "property": "C18",
   "status": "partial",
   "theorems": [
    "Verif.Props.HierDict.C18_dict_roundtrip_partial",
    "Verif.Props.HierDict.C18_same_lookup",
    "Verif.Props.HierDict.C18_fails_long_lists",
    "Verif.Props.HierDict.C18_fails_text_none",
    "Verif.Props.HierDict.C18_fails_mixed_lists",
    "Verif.Props.HierDict.C18_fails_large_integers",
    "Verif.Props.HierDict.C18_fails_nul_character",
    "Verif.Props.HierDict.C18_fails_bytes",
    "Verif.Props.HierDict.C18_fails_reserved_keys",
    "Verif.Props.HierDict.C18_not_same"
   ],
   "note": "Proved for storable values (Spec/HierDict.lean), any nesting and any iteration order of the file; the other theorems are concrete dictionaries that do not survive."
  },
  {
   "property": "C21",
   "status": "proved",
   "theorems": [
    "Verif.Props.Blockfile.C21_sections",
    "Verif.Props.Blockfile.C21_writes",
    "Verif.Props.Blockfile.C21_not_16_aligned"
   ],
   "note": "The required boundary is 16 bits, as the comment in the code says."
  },
  {
   "property": "C22",
   "status": "partial",
   "theorems": [
    "Verif.Props.Blockfile.C22_roundtrip_partial",
    "Verif.Props.Blockfile.C22_fails_big_endian"
   ],
   "note": "Proved for the default byte order, any truncation point; with endianness='>' the header is still written little-endian."
  },
  {
   "property": "C23",
   "status": "partial",
   "theorems": [
    "Verif.Props.Blockfile.C23_note_partial",
    "Verif.Props.Blockfile.C23_readFile_note",
    "Verif.Props.Blockfile.C23_fails_non_ascii",
    "Verif.Props.Blockfile.C23_fails_long_non_ascii"
   ],
   "note": "Proved for ASCII notes; other texts are written as UTF-8 and read as Latin-1."
  },
  {
   "property": "C24",
   "status": "partial",
   "theorems": [
    "Verif.Props.Blockfile.C24_lazy_eq_partial",
    "Verif.Props.Blockfile.C24_lazy_refuses",
    "Verif.Props.Blockfile.C24_fails_single_line",
    "Verif.Props.Blockfile.C24_fails_truncated"
   ],
   "note": "Proved for complete files without dimensions of length one; false otherwise."
  },
  {
   "property": "C25",
   "status": "partial",
   "theorems": [
    "Verif.Props.Msa.C25_header_partial",
    "Verif.Props.Msa.C25_metadata",
    "Verif.Props.Msa.C25_fails_colon",
    "Verif.Props.Msa.C25_fails_colon_dashes",
    "Verif.Props.Msa.C25_fails_space_at_64",
    "Verif.Props.Msa.C25_fails_non_latin",
    "Verif.Props.Msa.C25_fails_none",
    "Verif.Props.Msa.C25_fails_unknown_number"
   ],
   "note": "Proved for representable keywords and values of the type the format prescribes; float(str(x)) = x is a hypothesis. The other theorems are headers that do not survive."
  },
  {
   "property": "C26",
   "status": "partial",
   "theorems": [
    "Verif.Props.Msa.C26_write_pure_partial",
    "Verif.Props.Msa.C26_sequence_partial",
    "Verif.Props.Msa.C26_fails_second_write",
    "Verif.Props.Msa.C26_fails_after_sem"
   ],
   "note": "False for signals read from an .msa file (their original metadata is emptied of FORMAT and VERSION) and after writing an SEM signal (global table changed)."
  },
  {
   "property": "C27",
   "status": "partial",
   "theorems": [
    "Verif.Props.Ripple.C27_header_partial",
    "Verif.Props.Ripple.C27_accepted",
    "Verif.Props.Ripple.C27_selection",
    "Verif.Props.Ripple.C27_fails_semicolon",
    "Verif.Props.Ripple.C27_fails_tab",
    "Verif.Props.Ripple.C27_fails_newline",
    "Verif.Props.Ripple.C27_fails_misspelling",
    "Verif.Props.Ripple.C27_data_length_text",
    "Verif.Props.Ripple.C27_fails_dont_care_depth"
   ],
   "note": "Proved for texts without tabs, semicolons, line ends and surrounding white space; int/float conversions are parameters. dont-care records with a depth are accepted although inconsistent."
  },
  {
   "property": "C28",
   "status": "partial",
   "theorems": [
    "Verif.Props.Ripple.C28_offset",
    "Verif.Props.Ripple.C28_short",
    "Verif.Props.Ripple.C28_roundtrip_partial",
    "Verif.Props.Ripple.C28_axes",
    "Verif.Props.Ripple.C28_dtype",
    "Verif.Props.Ripple.C28_fails_int16",
    "Verif.Props.Ripple.C28_fails_single_channel"
   ],
   "note": "Raw data: proved for every layout, axis order, item size, byte order and offset. Not every integer type can be written, and single-channel spectra are refused when reading."
  },
  {
   "property": "C29",
   "status": "partial",
   "theorems": [
    "Verif.Props.Tvips.C29_frames_partial",
    "Verif.Props.Tvips.C29_sizes",
    "Verif.Props.Tvips.C29_numbers",
    "Verif.Props.Tvips.C29_stack",
    "Verif.Props.Tvips.C29_fails_version_1",
    "Verif.Props.Tvips.C29_fails_single_image",
    "Verif.Props.Tvips.C29_fails_one_frame"
   ],
   "note": "Proved for version 2 files with any limit and any number of frames; version 1 files, single images and stacks of one frame do not survive."
  },
  {
   "property": "C30",
   "status": "partial",
   "theorems": [
    "Verif.Props.Tvips.C30_permutation",
    "Verif.Props.Tvips.C30_inside",
    "Verif.Props.Tvips.C30_undoes_snake_x",
    "Verif.Props.Tvips.C30_other_snake_mirrored",
    "Verif.Props.Tvips.C30_fails_snake_y"
   ],
   "note": "Every winding and hysteresis is a permutation of the frames of the scan; the correction along x undoes a snake scan (starting right to left), the one along y does not undo a scan with fast axis y."
  },
  {
   "property": "C31",
   "status": "partial",
   "theorems": [
    "Verif.Props.Tvips.C31_rewrite_partial",
    "Verif.Props.Tvips.C31_history_partial",
    "Verif.Props.Tvips.C31_fails_shorter_recording"
   ],
   "note": "Exact unless an earlier recording left files with higher numbers."
  },
  {
   "property": "C32",
   "status": "partial",
   "theorems": [
    "Verif.Props.Semper.C32_label_partial",
    "Verif.Props.Semper.C32_fails_no_title",
    "Verif.Props.Semper.C32_fails_non_ascii",
    "Verif.Props.Semper.C32_fails_large",
    "Verif.Props.Semper.C32_fails_long_title",
    "Verif.Props.Semper.C32_fails_long_range"
   ],
   "note": "Proved for ASCII titles of at most 144 characters and sizes below 32768; a missing or non-ASCII title fails."
  },
  {
   "property": "C33",
   "status": "partial",
   "theorems": [
    "Verif.Props.Semper.C33_rows_partial",
    "Verif.Props.Semper.C33_padded_row",
    "Verif.Props.Semper.C33_fails_big_endian"
   ],
   "note": "Proved for all formats and sizes; big-endian integer arrays come back with swapped bytes."
  },
  {
   "property": "C34",
   "status": "partial",
   "theorems": [
    "Verif.Props.Semper.C34_axes_partial",
    "Verif.Props.Semper.C34_fails_other_unit",
    "Verif.Props.Semper.C34_fails_no_unit",
    "Verif.Props.Semper.C34_fails_long_unit",
    "Verif.Props.Semper.C34_fails_length_one"
   ],
   "note": "Proved for axes with a common unit of at most 4 characters and no axis of length one."
  },
  {
   "property": "C35",
   "status": "partial",
   "theorems": [
    "Verif.Props.Mrc.C35_unique",
    "Verif.Props.Mrc.C35_virtual_name",
    "Verif.Props.Mrc.C35_navigators_partial",
    "Verif.Props.Mrc.C35_matching_partial",
    "Verif.Props.Mrc.C35_fails_unsorted_listing",
    "Verif.Props.Mrc.C35_fails_virtual_external"
   ],
   "note": "Uniqueness within each kind and the number of names hold for all directories; names match their files only when the directory is listed in sorted order, and a virtual and an external image may share a name."
  },
  {
   "property": "C36",
   "status": "partial",
   "theorems": [
    "Verif.Props.Mrc.C36_scan_partial",
    "Verif.Props.Mrc.C36_scan_sizes",
    "Verif.Props.Mrc.C36_movie_sizes",
    "Verif.Props.Mrc.C36_movie_partial",
    "Verif.Props.Mrc.C36_scan_all_one",
    "Verif.Props.Mrc.C36_fails_scan",
    "Verif.Props.Mrc.C36_fails_time_without_delay",
    "Verif.Props.Mrc.C36_fails_movie"
   ],
   "note": "Holds only when the file gives no calibration: scan scales are all replaced by 1, movie scales are returned as text."
  },
  {
   "property": "C54",
   "status": "partial",
   "theorems": [
    "Verif.Props.Mrc.C54_axes_partial",
    "Verif.Props.Mrc.C54_fails_inner_length_one",
    "Verif.Props.Mrc.C54_fails_single_frame"
   ],
   "note": "Proved when only leading dimensions have length one."
  },
  {
   "property": "C37",
   "status": "partial",
   "theorems": [
    "Verif.Props.QuantumDetector.C37_inside_file",
    "Verif.Props.QuantumDetector.C37_shape",
    "Verif.Props.QuantumDetector.C37_inside_range_partial",
    "Verif.Props.QuantumDetector.C37_interrupted",
    "Verif.Props.QuantumDetector.C37_fails_interrupted_range",
    "Verif.Props.QuantumDetector.C37_fails_reversed_range"
   ],
   "note": "Frames always lie inside the file; an interrupted acquisition ignores last_frame, and a range whose first frame is after the last is an error."
  },
  {
   "property": "C38",
   "status": "partial",
   "theorems": [
    "Verif.Props.QuantumDetector.C38_buffer_partial",
    "Verif.Props.QuantumDetector.C38_file_frames",
    "Verif.Props.QuantumDetector.C38_slice",
    "Verif.Props.QuantumDetector.C38_fails_first_frame",
    "Verif.Props.QuantumDetector.C38_fails_quad"
   ],
   "note": "Proved for ranges starting with the first frame; first_frame is ignored for buffers."
  },
  {
   "property": "C39",
   "status": "partial",
   "theorems": [
    "Verif.Props.QuantumDetector.C39_first_partial",
    "Verif.Props.QuantumDetector.C39_fails_all",
    "Verif.Props.QuantumDetector.C39_fails_count"
   ],
   "note": "max_index=-1 drops the last header of every list."
  },
  {
   "property": "C40",
   "status": "partial",
   "theorems": [
    "Verif.Props.DigitalMicrograph.C40_tree_partial",
    "Verif.Props.DigitalMicrograph.C40_fails_names",
    "Verif.Props.DigitalMicrograph.C40_fails_numbered",
    "Verif.Props.DigitalMicrograph.C40_fails_arrays"
   ],
   "note": "Proved for trees whose shown names stay different and that contain no arrays of arrays."
  },
  {
   "property": "C41",
   "status": "partial",
   "theorems": [
    "Verif.Props.DigitalMicrograph.C41_skip_partial",
    "Verif.Props.DigitalMicrograph.C41_keys",
    "Verif.Props.DigitalMicrograph.C41_fails_string",
    "Verif.Props.DigitalMicrograph.C41_fails_strings"
   ],
   "note": "Proved for all values but strings and arrays of strings."
  },
  {
   "property": "C42",
   "status": "partial",
   "theorems": [
    "Verif.Props.DMImage.C42_hermitian",
    "Verif.Props.DMImage.C42_square",
    "Verif.Props.DMImage.C42_kept",
    "Verif.Props.DMImage.C42_filled",
    "Verif.Props.DMImage.C42_new_partial",
    "Verif.Props.DMImage.C42_fails_new"
   ],
   "note": "Proved in full for the old packed format; the new format does not mirror the rows."
  },
  {
   "property": "C43",
   "status": "partial",
   "theorems": [
    "Verif.Props.Jeol.C43_skip",
    "Verif.Props.Jeol.C43_unique",
    "Verif.Props.Jeol.C43_read_skip",
    "Verif.Props.Jeol.C43_frames",
    "Verif.Props.Jeol.C43_fails_lazy"
   ],
   "note": "Proved in full for in-memory loading; lazy reading consumes one word too many."
  },
  {
   "property": "C44",
   "status": "partial",
   "theorems": [
    "Verif.Props.Jeol.C44_frame_partial",
    "Verif.Props.Jeol.C44_fails_tall",
    "Verif.Props.Jeol.C44_fails_downsampled",
    "Verif.Props.Jeol.C44_fails_second"
   ],
   "note": "Proved for the counts of the first frame of maps that are not higher than wide."
  },
  {
   "property": "C45",
   "status": "partial",
   "theorems": [
    "Verif.Props.Jeol.C45_exact",
    "Verif.Props.Jeol.C45_error",
    "Verif.Props.Jeol.C45_never_silent",
    "Verif.Props.Jeol.C45_no_trace",
    "Verif.Props.Jeol.C45_sum",
    "Verif.Props.Jeol.C45_fails_lazy_image"
   ],
   "note": "Proved in full for in-memory loading; when loading lazily the image of a rejected frame is added twice."
  },
  {
   "property": "C55",
   "status": "partial",
   "theorems": [
    "Verif.Props.Jeol.C55_square_partial",
    "Verif.Props.Jeol.C55_fails_tall"
   ],
   "note": "Proved for square maps."
  },
  {
   "property": "C46",
   "status": "partial",
   "theorems": [
    "Verif.Props.JeolTree.C46_tree_partial",
    "Verif.Props.JeolTree.C46_no_end",
    "Verif.Props.JeolTree.C46_fails_same_name",
    "Verif.Props.JeolTree.C46_fails_below_value",
    "Verif.Props.JeolTree.C46_fails_limits",
    "Verif.Props.JeolTree.C46_fails_empty_name",
    "Verif.Props.JeolTree.C46_fails_silently",
    "Verif.Props.JeolTree.C46_fails_odd_length"
   ],
   "note": "Proved for trees with ASCII names (and the two special forms), different names within a group, nothing below values and limits. The other theorems show what the parser does with the rest."
  },
  {
   "property": "C47",
   "status": "partial",
   "theorems": [
    "Verif.Props.Sfs.C47_piece",
    "Verif.Props.Sfs.C47_chunks",
    "Verif.Props.Sfs.C47_table_partial",
    "Verif.Props.Sfs.C47_compressed",
    "Verif.Props.Sfs.C47_fails_empty",
    "Verif.Props.Sfs.C47_fails_at_end",
    "Verif.Props.Sfs.C47_fails_unaligned"
   ],
   "note": "Proved for every non-empty range, every placement of chunks and compressed files; empty files and empty ranges at the end fail, and so do tables when the size of the chunks is no multiple of 4."
  },
  {
   "property": "C48",
   "status": "partial",
   "theorems": [
    "Verif.Props.Sfs.C48_reachable",
    "Verif.Props.Sfs.C48_container_partial",
    "Verif.Props.Sfs.C48_fails_order",
    "Verif.Props.Sfs.C48_fails_order_ex",
    "Verif.Props.Sfs.C48_fails_many",
    "Verif.Props.Sfs.C48_fails_cycle",
    "Verif.Props.Sfs.C48_fails_first_empty",
    "Verif.Props.Sfs.C48_fails_no_files"
   ],
   "note": "A file is found exactly if all directories above it are listed before it; from the bytes of the container to the content of the file, for tables whose chunks can be counted from their bytes."
  },
  {
   "property": "C49",
   "status": "partial",
   "theorems": [
    "Verif.Props.Hypermap.C49_agree_partial",
    "Verif.Props.Hypermap.C49_twelve",
    "Verif.Props.Hypermap.C49_fails_last_channel",
    "Verif.Props.Hypermap.C49_fails_beyond",
    "Verif.Props.Hypermap.C49_fails_twice",
    "Verif.Props.Hypermap.C49_fails_wide",
    "Verif.Props.Hypermap.C49_fails_size"
   ],
   "note": "Both decoders return the stored counts for all maps of pulses and packed spectra that both can read; the other theorems show where they differ."
  },
  {
   "property": "C50",
   "status": "partial",
   "theorems": [
    "Verif.Props.Hypermap.C50_compiled_partial",
    "Verif.Props.Hypermap.C50_python_partial",
    "Verif.Props.Hypermap.C50_cut_partial",
    "Verif.Props.Hypermap.C50_fails_exact",
    "Verif.Props.Hypermap.C50_fails_small_blocks"
   ],
   "note": "Proved for every cut into blocks at least as long as the header and each pixel; the Python decoder also needs that the last block is not used up."
  },
  {
   "property": "C56",
   "status": "partial",
   "theorems": [
    "Verif.Props.Hypermap.C56_estimate_partial",
    "Verif.Props.Hypermap.C56_counts_partial",
    "Verif.Props.Hypermap.C56_fails_hot",
    "Verif.Props.Hypermap.C56_fails_signed"
   ],
   "note": "The type holds the estimate (if unsigned), but the estimate is twice the mean count of a pixel, not the largest."
  },
  {
   "property": "C52",
   "status": "partial",
   "theorems": [
    "Verif.Props.Pantarhei.C52_default_partial",
    "Verif.Props.Pantarhei.C52_pickle_partial",
    "Verif.Props.Pantarhei.C52_written",
    "Verif.Props.Pantarhei.C52_written_axes",
    "Verif.Props.Pantarhei.C52_written_types",
    "Verif.Props.Pantarhei.C52_fails_calibration",
    "Verif.Props.Pantarhei.C52_fails_spectrum_image",
    "Verif.Props.Pantarhei.C52_fails_scan",
    "Verif.Props.Pantarhei.C52_fails_eels",
    "Verif.Props.Pantarhei.C52_fails_one_spectrum",
    "Verif.Props.Pantarhei.C52_fails_length_one"
   ],
   "note": "Data and order come back for signals without axes of length one and without special axis names; the calibration written is right but never read back; several kinds of signals come back reordered or cannot be read."
  },
  {
   "property": "C53",
   "status": "partial",
   "theorems": [
    "Verif.Props.Pantarhei.C53_stored_partial",
    "Verif.Props.Pantarhei.C53_elements_partial",
    "Verif.Props.Pantarhei.C53_fails_written",
    "Verif.Props.Pantarhei.C53_fails_compressed",
    "Verif.Props.Pantarhei.C53_fails_fortran"
   ],
   "note": "Proved for uncompressed archives in C order; compressed archives, which the writer makes, and Fortran order are misread."
  },
  {
   "property": "C57",
   "status": "partial",
   "theorems": [
    "Verif.Props.Pantarhei.C57_axes",
    "Verif.Props.Pantarhei.C57_order",
    "Verif.Props.Pantarhei.C57_lists",
    "Verif.Props.Pantarhei.C57_lists_removed",
    "Verif.Props.Pantarhei.C57_fails_lists"
   ],
   "note": "Proved in full for the axes and data; the lists of metadata are right unless a dimension other than the first was removed."
  },
  {
   "property": "C58",
   "status": "partial",
   "theorems": [
    "Verif.Props.Tofwerk.C58_counts_partial",
    "Verif.Props.Tofwerk.C58_at_most_once",
    "Verif.Props.Tofwerk.C58_fails_overlap"
   ],
   "note": "Proved for windows that do not overlap; an ion in two windows is counted only in the one that begins later, or in none."
  },
  {
   "property": "C59",
   "status": "partial",
   "theorems": [
    "Verif.Props.Tofwerk.C59_same_partial",
    "Verif.Props.Tofwerk.C59_fails_no_peaks",
    "Verif.Props.Tofwerk.C59_fails_clock"
   ],
   "note": "Proved for all peak tables but the empty one and all clock ratios but zero."
  },
  {
   "property": "C60",
   "status": "partial",
   "theorems": [
    "Verif.Props.TofwerkData.C60_nominal",
    "Verif.Props.TofwerkData.C60_additional",
    "Verif.Props.TofwerkData.C60_raw",
    "Verif.Props.TofwerkData.C60_fails_metadata",
    "Verif.Props.TofwerkData.C60_fails_batch"
   ],
   "note": "Proved for axes and data for every batch size but zero; the peak table in the metadata is neither sorted nor restricted to the range."
  },
  {
   "property": "C61",
   "status": "partial",
   "theorems": [
    "Verif.Props.TofwerkSum.C61_aligned",
    "Verif.Props.TofwerkSum.C61_increasing_partial",
    "Verif.Props.TofwerkSum.C61_nonneg_partial",
    "Verif.Props.TofwerkSum.C61_fails_bump",
    "Verif.Props.TofwerkSum.C61_fails_negative"
   ],
   "note": "Alignment is proved in full; the axis is increasing for masses that fall and then rise, and not negative if no mass after the first such is."
  },
  {
   "property": "C62",
   "status": "partial",
   "theorems": [
    "Verif.Props.TofwerkSum.C62_range",
    "Verif.Props.TofwerkSum.C62_shape",
    "Verif.Props.TofwerkSum.C62_slices_partial",
    "Verif.Props.TofwerkSum.C62_fails_shapes"
   ],
   "note": "Proved for images of one shape; images of other shapes are removed before the range is applied."
  },
  {
   "property": "C63",
   "status": "partial",
   "theorems": [
    "Verif.Props.TofwerkSum.C63_all_partial",
    "Verif.Props.TofwerkSum.C63_requested",
    "Verif.Props.TofwerkSum.C63_accepted",
    "Verif.Props.TofwerkSum.C63_fails_lazy",
    "Verif.Props.TofwerkSum.C63_fails_range"
   ],
   "note": "Proved without a mass range, and for \"all\" if not lazy."
  },
  {
   "property": "C64",
   "status": "partial",
   "theorems": [
    "Verif.Props.Tia.C64_header",
    "Verif.Props.Tia.C64_elements_partial",
    "Verif.Props.Tia.C64_fails_end"
   ],
   "note": "The header is proved in full; the elements for files that do not end with the offset of the last valid element."
  },
  {
   "property": "C65",
   "status": "partial",
   "theorems": [
    "Verif.Props.Tia.C65_partial",
    "Verif.Props.Tia.C65_values",
    "Verif.Props.Tia.C65_fails_line",
    "Verif.Props.Tia.C65_fails_no_dimension",
    "Verif.Props.Tia.C65_fails_three_dimensions",
    "Verif.Props.Tia.C65_fails_too_many"
   ],
   "note": "Proved for one or more dimensions, at most two of them in metres, and for images with x as fast direction if no dimension has size one."
  },
  {
   "property": "C66",
   "status": "partial",
   "theorems": [
    "Verif.Props.Tia.C66_partial",
    "Verif.Props.Tia.C66_fails_offset",
    "Verif.Props.Tia.C66_fails_element",
    "Verif.Props.Tia.C66_fails_mirror"
   ],
   "note": "Steps, sizes and units are proved; positions only where the offset needs no conversion and no calibration element is ignored."
  },
  {
   "property": "C67",
   "status": "partial",
   "theorems": [
    "Verif.Props.Tia.C67_objects_partial",
    "Verif.Props.Tia.C67_files_partial",
    "Verif.Props.Tia.C67_fails_first",
    "Verif.Props.Tia.C67_fails_end",
    "Verif.Props.Tia.C67_fails_ten",
    "Verif.Props.Tia.C67_fails_zero",
    "Verif.Props.Tia.C67_fails_date",
    "Verif.Props.Tia.C67_fails_no_object"
   ],
   "note": "Proved for the numbers 1 to 9 and objects that end, not at the beginning of the file."
  },
  {
   "property": "C68",
   "status": "partial",
   "theorems": [
    "Verif.Props.Digitalsurf.C68_written",
    "Verif.Props.Digitalsurf.C68_read",
    "Verif.Props.Digitalsurf.C68_compressed",
    "Verif.Props.Digitalsurf.C68_back",
    "Verif.Props.Digitalsurf.C68_args",
    "Verif.Props.Digitalsurf.C68_fails_private"
   ],
   "note": "Every header field, the comment and the points come back; the private zone does not."
  },
  {
   "property": "C69",
   "status": "partial",
   "theorems": [
    "Verif.Props.Digitalsurf.C69_partial",
    "Verif.Props.Digitalsurf.C69_fails_large",
    "Verif.Props.Digitalsurf.C69_fails_constant",
    "Verif.Props.Digitalsurf.C69_fails_single",
    "Verif.Props.Digitalsurf.C69_fails_missing",
    "Verif.Props.Digitalsurf.C69_fails_span"
   ],
   "note": "Proved for integers (up to 2^24 outside surfaces) and for double-precision data that are not constant and span at most 2^31, with missing values if asked for; double-precision arithmetic is taken as exact."
  },
  {
   "property": "C70",
   "status": "partial",
   "theorems": [
    "Verif.Props.Digitalsurf.C70_profile",
    "Verif.Props.Digitalsurf.C70_spectrum_partial",
    "Verif.Props.Digitalsurf.C70_spectra_partial",
    "Verif.Props.Digitalsurf.C70_surface",
    "Verif.Props.Digitalsurf.C70_map",
    "Verif.Props.Digitalsurf.C70_profiles",
    "Verif.Props.Digitalsurf.C70_surfaces",
    "Verif.Props.Digitalsurf.C70_image",
    "Verif.Props.Digitalsurf.C70_images_partial",
    "Verif.Props.Digitalsurf.C70_fails_one_spectrum",
    "Verif.Props.Digitalsurf.C70_fails_one_channel",
    "Verif.Props.Digitalsurf.C70_fails_order",
    "Verif.Props.Digitalsurf.C70_fails_rgb16",
    "Verif.Props.Digitalsurf.C70_fails_step"
   ],
   "note": "All ten kinds of signals are proved, with navigation axes first and axes that fit the fields; spectra need more than one spectrum and channel, series of images values up to 32767."
  },
  {
   "property": "C71",
   "status": "partial",
   "theorems": [
    "Verif.Props.Digitalsurf.C71_partial",
    "Verif.Props.Digitalsurf.C71_fails",
    "Verif.Props.Digitalsurf.C71_fails_zero"
   ],
   "note": "Proved for one object or one channel; wrong for several objects with several channels."
  },
  {
   "property": "C72",
   "status": "partial",
   "theorems": [
    "Verif.Props.DigitalsurfComment.C72_partial",
    "Verif.Props.DigitalsurfComment.C72_ignored",
    "Verif.Props.DigitalsurfComment.C72_fails_words",
    "Verif.Props.DigitalsurfComment.C72_fails_equals",
    "Verif.Props.DigitalsurfComment.C72_fails_number",
    "Verif.Props.DigitalsurfComment.C72_fails_list",
    "Verif.Props.DigitalsurfComment.C72_fails_nested",
    "Verif.Props.DigitalsurfComment.C72_fails_beside",
    "Verif.Props.DigitalsurfComment.C72_fails_units",
    "Verif.Props.DigitalsurfComment.C72_fails_underscore"
   ],
   "note": "Proved for dictionaries of sections whose values are single words that Python reads back; the other theorems show what happens to the rest."
  },
  {
   "property": "C73",
   "status": "proved",
   "theorems": [
    "Verif.Props.Quadstar.C73",
    "Verif.Props.Quadstar.C73_lazy",
    "Verif.Props.Quadstar.C73_fails_range"
   ],
   "note": "For full scales up to 10^308; larger ones raise (C73_fails_range)."
  },
  {
   "property": "C74",
   "status": "partial",
   "theorems": [
    "Verif.Props.Quadstar.C74_partial",
    "Verif.Props.Quadstar.C74_equidistant",
    "Verif.Props.Quadstar.C74_fails_uniform",
    "Verif.Props.Quadstar.C74_fails_backwards"
   ],
   "note": "Masses, and times with a non-uniform axis, are proved; a uniform axis is right at its ends, and everywhere for cycles at equal distances."
  },
  {
   "property": "C75",
   "status": "partial",
   "theorems": [
    "Verif.Props.Quadstar.C75_partial",
    "Verif.Props.Quadstar.C75_equidistant",
    "Verif.Props.Quadstar.C75_fails_labels",
    "Verif.Props.Quadstar.C75_fails_trailing"
   ],
   "note": "Intensities and times are proved; the mass axis is right for equidistant labels of the first cycle."
  },
  {
   "property": "C76",
   "status": "partial",
   "theorems": [
    "Verif.Props.Quadstar.C76_partial",
    "Verif.Props.Quadstar.C76_date",
    "Verif.Props.Quadstar.C76_fails_null"
   ],
   "note": "Dates are proved; texts when only null bytes follow them and no white space is at their ends."
  },
  {
   "property": "C77",
   "status": "partial",
   "theorems": [
    "Verif.Props.Renishaw.C77_partial",
    "Verif.Props.Renishaw.C77_fails_zero",
    "Verif.Props.Renishaw.C77_fails_trailing"
   ],
   "note": "Proved for files that are sequences of blocks; bytes after the last block make the reader raise, and a block of size zero keeps it from ending."
  },
  {
   "property": "C78",
   "status": "partial",
   "theorems": [
    "Verif.Props.Renishaw.C78_partial",
    "Verif.Props.Renishaw.C78_fails_array",
    "Verif.Props.Renishaw.C78_fails_flag",
    "Verif.Props.Renishaw.C78_fails_wxdm"
   ],
   "note": "Proved for all blocks of well-formed entries in files that are read; arrays of one number, unknown flags and complete blocks WXDM are treated otherwise."
  },
  {
   "property": "C79",
   "status": "partial",
   "theorems": [
    "Verif.Props.Renishaw.C79_map_partial",
    "Verif.Props.Renishaw.C79_unfinished",
    "Verif.Props.Renishaw.C79_line",
    "Verif.Props.Renishaw.C79_series_partial",
    "Verif.Props.Renishaw.C79_single",
    "Verif.Props.Renishaw.C79_mean",
    "Verif.Props.Renishaw.C79_loads_map",
    "Verif.Props.Renishaw.C79_loads_series",
    "Verif.Props.Renishaw.C79_loads_single",
    "Verif.Props.Renishaw.C79_fails_snake",
    "Verif.Props.Renishaw.C79_fails_line_unfinished",
    "Verif.Props.Renishaw.C79_fails_two",
    "Verif.Props.Renishaw.C79_fails_point"
   ],
   "note": "Proved for maps measured row by row, lines, series of one quantity, single spectra and accumulations; the counterexamples are maps measured to and fro, unfinished lines, series of two quantities and spectra of one point."
  },
  {
   "property": "C80",
   "status": "partial",
   "theorems": [
    "Verif.Props.Renishaw.C80_map",
    "Verif.Props.Renishaw.C80_series_partial",
    "Verif.Props.Renishaw.C80_uniform",
    "Verif.Props.Renishaw.C80_best",
    "Verif.Props.Renishaw.C80_signal",
    "Verif.Props.Renishaw.C80_fails_uneven",
    "Verif.Props.Renishaw.C80_fails_return",
    "Verif.Props.Renishaw.C80_fails_time",
    "Verif.Props.Renishaw.C80_fails_one",
    "Verif.Props.Renishaw.C80_fails_note"
   ],
   "note": "Proved for maps, for series with equal steps (the ends for all), and for signal axes; floating-point arithmetic is taken as exact."
  },
  {
   "property": "C81",
   "status": "partial",
   "theorems": [
    "Verif.Props.Xml.C81_comma",
    "Verif.Props.Xml.C81_fails_plus",
    "Verif.Props.Xml.C81_fails_list",
    "Verif.Props.Xml.C81_fails_attribute"
   ],
   "note": "The exact set of replaced commas is proved; numbers with a plus sign in the exponent and in attributes are left out, and pairs of whole numbers are taken for one number."
  },
  {
   "property": "C82",
   "status": "partial",
   "theorems": [
    "Verif.Props.Xml.C82_value_partial",
    "Verif.Props.Xml.C82_ignore",
    "Verif.Props.Xml.C82_total",
    "Verif.Props.Xml.C82_default",
    "Verif.Props.Xml.C82_fails_twice",
    "Verif.Props.Xml.C82_fails_empty",
    "Verif.Props.Xml.C82_fails_tails",
    "Verif.Props.Xml.C82_fails_prefix",
    "Verif.Props.Xml.C82_fails_type"
   ],
   "note": "Proved with any interpretation of literals, up to equal keys (none with the default settings) and the second evaluation of a text that is alone."
  },
  {
   "property": "C83",
   "status": "partial",
   "theorems": [
    "Verif.Props.Xml.C83_box_partial",
    "Verif.Props.Xml.C83_fails_indented",
    "Verif.Props.Xml.C83_fails_attributes",
    "Verif.Props.Xml.C83_fails_repeated",
    "Verif.Props.Xml.C83_fails_error"
   ],
   "note": "Proved for elements where texts are alone and names are different."
  },
  {
   "property": "C84",
   "status": "partial",
   "theorems": [
    "Verif.Props.Hamamatsu.C84_comment_partial",
    "Verif.Props.Hamamatsu.C84_fails_bracket",
    "Verif.Props.Hamamatsu.C84_fails_equals",
    "Verif.Props.Hamamatsu.C84_fails_empty"
   ],
   "note": "Proved for values without opening brackets, with restrictions on a plain value at the end of a section; counterexamples for the rest."
  },
  {
   "property": "C85",
   "status": "partial",
   "theorems": [
    "Verif.Props.Hamamatsu.C85_image_partial",
    "Verif.Props.Hamamatsu.C85_uniform",
    "Verif.Props.Hamamatsu.C85_types",
    "Verif.Props.Hamamatsu.C85_fails_column",
    "Verif.Props.Hamamatsu.C85_fails_long",
    "Verif.Props.Hamamatsu.C85_fails_wide"
   ],
   "note": "Proved for all images and tables of at least two columns; sizes of 32768 and more are taken as negative."
  },
  {
   "property": "C86",
   "status": "partial",
   "theorems": [
    "Verif.Props.Hamamatsu.C86_clean",
    "Verif.Props.Hamamatsu.C86_title",
    "Verif.Props.Hamamatsu.C86_date",
    "Verif.Props.Hamamatsu.C86_time_partial",
    "Verif.Props.Hamamatsu.C86_detector",
    "Verif.Props.Hamamatsu.C86_spectrometer",
    "Verif.Props.Hamamatsu.C86_fails_unit",
    "Verif.Props.Hamamatsu.C86_fails_frames",
    "Verif.Props.Hamamatsu.C86_fails_mode",
    "Verif.Props.Hamamatsu.C86_fails_date",
    "Verif.Props.Hamamatsu.C86_fails_title",
    "Verif.Props.Hamamatsu.C86_fails_blaze"
   ],
   "note": "Proved for all comments that can be read; units of time other than s and ms are taken as seconds, and missing numbers make the reader raise."
  },
  {
   "property": "C87",
   "status": "proved",
   "theorems": [
    "Verif.Props.Empad.C87_places",
    "Verif.Props.Empad.C87_shape",
    "Verif.Props.Empad.C87_short",
    "Verif.Props.Empad.C87_loads"
   ],
   "note": "For readable XML entries and positive sizes."
  },
  {
   "property": "C88",
   "status": "partial",
   "theorems": [
    "Verif.Props.Empad.C88_axes",
    "Verif.Props.Empad.C88_pattern",
    "Verif.Props.Empad.C88_scan",
    "Verif.Props.Empad.C88_series",
    "Verif.Props.Empad.C88_date",
    "Verif.Props.Empad.C88_fails_name",
    "Verif.Props.Empad.C88_fails_dot",
    "Verif.Props.Empad.C88_fails_date"
   ],
   "note": "Proved for all files that can be read; some names of raw files and time stamps without a time cannot."
  },
  {
   "property": "C89",
   "status": "partial",
   "theorems": [
    "Verif.Props.Topspin.C89_places",
    "Verif.Props.Topspin.C89_axes",
    "Verif.Props.Topspin.C89_index_partial",
    "Verif.Props.Topspin.C89_image_partial",
    "Verif.Props.Topspin.C89_fails_column",
    "Verif.Props.Topspin.C89_fails_upwards",
    "Verif.Props.Topspin.C89_fails_columns",
    "Verif.Props.Topspin.C89_fails_snake",
    "Verif.Props.Topspin.C89_fails_image"
   ],
   "note": "Proved for scans row by row with increasing x and y; the numbers of dimensions are exchanged for one column, and the calibrations of images in x and y always are."
  },
  {
   "property": "C90",
   "status": "partial",
   "theorems": [
    "Verif.Props.Topspin.C90_metadata_partial",
    "Verif.Props.Topspin.C90_date_partial",
    "Verif.Props.Topspin.C90_meta",
    "Verif.Props.Topspin.C90_datasets",
    "Verif.Props.Topspin.C90_fails_boolean",
    "Verif.Props.Topspin.C90_fails_nested",
    "Verif.Props.Topspin.C90_fails_empty",
    "Verif.Props.Topspin.C90_fails_afternoon"
   ],
   "note": "Proved for numbers, texts and records of them; Boolean values, nested records, empty texts and times of the afternoon are wrong."
  },
  {
   "property": "C91",
   "status": "proved",
   "theorems": [
    "Verif.Props.Unpickle.C91_lookups",
    "Verif.Props.Unpickle.C91_calls",
    "Verif.Props.Unpickle.C91_rejects",
    "Verif.Props.Unpickle.C91_plain",
    "Verif.Props.Unpickle.C91_accepts",
    "Verif.Props.Unpickle.findClass_iff"
   ],
   "note": "For the instructions of the pickle machine; what the listed callables themselves do is a parameter of the model."
  },
  {
   "property": "C92",
   "status": "partial",
   "theorems": [
    "Verif.Props.Dens.C92_loads_partial",
    "Verif.Props.Dens.C92_days",
    "Verif.Props.Dens.C92_steps",
    "Verif.Props.Dens.C92_checked",
    "Verif.Props.Dens.C92_fails_blank",
    "Verif.Props.Dens.C92_fails_single",
    "Verif.Props.Dens.C92_fails_pause"
   ],
   "note": "Proved for logs of at least two lines without pauses of a day or more; a blank file is read forever, and a log of one line is rejected."
  },
  {
   "property": "C93",
   "status": "partial",
   "theorems": [
    "Verif.Props.Protochips.C93_loads_partial",
    "Verif.Props.Protochips.C93_steps",
    "Verif.Props.Protochips.C93_rejects",
    "Verif.Props.Protochips.C93_fails_user",
    "Verif.Props.Protochips.C93_fails_comma",
    "Verif.Props.Protochips.C93_fails_offset",
    "Verif.Props.Protochips.C93_fails_short",
    "Verif.Props.Protochips.C93_fails_name",
    "Verif.Props.Protochips.C93_fails_order"
   ],
   "note": "Proved for logs of at least four rows with a user and plain names of columns; without a user, the first row is lost."
  },
  {
   "property": "C94",
   "status": "partial",
   "theorems": [
    "Verif.Props.Impulse.C94_loads_partial",
    "Verif.Props.Impulse.C94_valve",
    "Verif.Props.Impulse.C94_path",
    "Verif.Props.Impulse.C94_steps",
    "Verif.Props.Impulse.C94_rejects",
    "Verif.Props.Impulse.C94_fails_nofile",
    "Verif.Props.Impulse.C94_fails_offset",
    "Verif.Props.Impulse.C94_fails_comma",
    "Verif.Props.Impulse.C94_fails_blank",
    "Verif.Props.Impulse.C94_fails_valve",
    "Verif.Props.Impulse.C94_fails_names",
    "Verif.Props.Impulse.C94_fails_char",
    "Verif.Props.Impulse.C94_fails_single",
    "Verif.Props.Impulse.C94_fails_folder"
   ],
   "note": "Proved for logs of at least four rows with a metadata file and plain names of columns that stay different; counterexamples for the rest."
  },
  {
   "property": "C95",
   "status": "partial",
   "theorems": [
    "Verif.Props.TvipsScan.C95_auto_partial",
    "Verif.Props.TvipsScan.C95_complete",
    "Verif.Props.TvipsScan.C95_square",
    "Verif.Props.TvipsScan.C95_axes",
    "Verif.Props.TvipsScan.C95_stack",
    "Verif.Props.TvipsScan.C95_fails_after",
    "Verif.Props.TvipsScan.C95_fails_line",
    "Verif.Props.TvipsScan.C95_fails_single"
   ],
   "note": "Proved for scans without frames after them; with such frames the unsigned differences wrap around and the scan is lost. One-dimensional scan shapes get wrong axes, and a stack of a single frame is rejected."
  },
  {
   "property": "C96",
   "status": "partial",
   "theorems": [
    "Verif.Props.Edax.C96_spectrum_partial",
    "Verif.Props.Edax.C96_header",
    "Verif.Props.Edax.C96_symbols",
    "Verif.Props.Edax.C96_lazy_cut",
    "Verif.Props.Edax.C96_fails_old",
    "Verif.Props.Edax.C96_fails_cut",
    "Verif.Props.Edax.C96_fails_symbol"
   ],
   "note": "Proved for files as long as the header that is read. Old files of 20736 bytes cannot be loaded without load_all_spc; spectra that are cut off are loaded with fewer channels."
  },
  {
   "property": "C97",
   "status": "partial",
   "theorems": [
    "Verif.Props.Edax.C97_map_partial",
    "Verif.Props.Edax.C97_short",
    "Verif.Props.Edax.C97_width",
    "Verif.Props.Edax.C97_fails_big",
    "Verif.Props.Edax.C97_fails_channels"
   ],
   "note": "Proved for little-endian files, for lazy loading and for counts of one byte; big-endian maps are read in the wrong byte order without lazy."
  },
  {
   "property": "C98",
   "status": "partial",
   "theorems": [
    "Verif.Props.Edax.C98_line_partial",
    "Verif.Props.Edax.C98_rejects",
    "Verif.Props.Edax.C98_fails_single",
    "Verif.Props.Edax.C98_fails_row",
    "Verif.Props.Edax.C98_fails_path",
    "Verif.Props.Edax.C98_fails_lines"
   ],
   "note": "Proved for at least two spectra, two channels and two distances, and for paths that are absolute or without a directory; counterexamples for the rest."
  },
  {
   "property": "C99",
   "status": "partial",
   "theorems": [
    "Verif.Props.NumpyFile.C99_roundtrip_partial",
    "Verif.Props.NumpyFile.C99_rejects",
    "Verif.Props.NumpyFile.C99_fails_fortran",
    "Verif.Props.NumpyFile.C99_fails_empty",
    "Verif.Props.NumpyFile.C99_fails_negative"
   ],
   "note": "Proved for arrays without empty axes that are not loaded lazily from Fortran order; the elements of those are mixed up."
  },
  {
   "property": "C100",
   "status": "partial",
   "theorems": [
    "Verif.Props.Netcdf.C100_loads_partial",
    "Verif.Props.Netcdf.C100_rejects",
    "Verif.Props.Netcdf.C100_fails_image",
    "Verif.Props.Netcdf.C100_fails_spectrum",
    "Verif.Props.Netcdf.C100_fails_missing"
   ],
   "note": "Proved for spectrum images and stacks of images with all calibrations; with fewer dimensions the wrong axes are for navigation."
  },
  {
   "property": "C101",
   "status": "partial",
   "theorems": [
    "Verif.Props.ImageFile.C101_colours_partial",
    "Verif.Props.ImageFile.C101_axes",
    "Verif.Props.ImageFile.C101_fails_red",
    "Verif.Props.ImageFile.C101_fails_alpha",
    "Verif.Props.ImageFile.C101_fails_thin",
    "Verif.Props.ImageFile.C101_fails_la",
    "Verif.Props.ImageFile.C101_fails_frames",
    "Verif.Props.ImageFile.C101_fails_index",
    "Verif.Props.ImageFile.C101_fails_lazy"
   ],
   "note": "Proved for images where green and blue differ somewhere or all channels are equal; images where only red differs lose their colours."
  },
  {
   "property": "C102",
   "status": "partial",
   "theorems": [
    "Verif.Props.Arina.C102_frames_partial",
    "Verif.Props.Arina.C102_scan",
    "Verif.Props.Arina.C102_rejects",
    "Verif.Props.Arina.C102_fails_detector",
    "Verif.Props.Arina.C102_fails_counts",
    "Verif.Props.Arina.C102_fails_mean"
   ],
   "note": "Proved for square detectors with counts that fit into the type of the result; others fail, wrap around or are rounded down."
  },
  {
   "property": "C103",
   "status": "partial",
   "theorems": [
    "Verif.Props.Mrcz.C103_roundtrip_partial",
    "Verif.Props.Mrcz.C103_rejects",
    "Verif.Props.Mrcz.C103_fails_image",
    "Verif.Props.Mrcz.C103_fails_units",
    "Verif.Props.Mrcz.C103_fails_offset"
   ],
   "note": "Proved for three-dimensional signals in nm without offsets."
  },
  {
   "property": "C104",
   "status": "partial",
   "theorems": [
    "Verif.Props.JobinYvon.C104_scan_partial",
    "Verif.Props.JobinYvon.C104_fails_single",
    "Verif.Props.JobinYvon.C104_fails_uneven",
    "Verif.Props.JobinYvon.C104_fails_axes",
    "Verif.Props.JobinYvon.C104_fails_short",
    "Verif.Props.JobinYvon.C104_fails_depth"
   ],
   "note": "Proved for at least two wavelengths and two directions with all rows complete; positions that are not equidistant, single wavelengths, short rows and third axes are counterexamples."
  },
  {
   "property": "C105",
   "status": "partial",
   "theorems": [
    "Verif.Props.JobinYvon.C105_setup_partial",
    "Verif.Props.JobinYvon.C105_fails_hole",
    "Verif.Props.JobinYvon.C105_fails_filter",
    "Verif.Props.JobinYvon.C105_fails_unnamed",
    "Verif.Props.JobinYvon.C105_fails_empty"
   ],
   "note": "Proved for files with hole, filter, title and a first value for every entry; files without hole or filter cannot be read."
  },
  {
   "property": "C106",
   "status": "partial",
   "theorems": [
    "Verif.Props.Trivista.C106_scan_partial",
    "Verif.Props.Trivista.C106_windows_partial",
    "Verif.Props.Trivista.C106_fails_uneven",
    "Verif.Props.Trivista.C106_fails_place",
    "Verif.Props.Trivista.C106_fails_windows",
    "Verif.Props.Trivista.C106_fails_glued_scan",
    "Verif.Props.Trivista.C106_fails_single",
    "Verif.Props.Trivista.C106_fails_repeat"
   ],
   "note": "Proved for one spectrum, series, line scans and maps, and for windows of one size; times after the second frame, windows of different sizes or of scans, and places of axes of windows are counterexamples."
  },
  {
   "property": "C107",
   "status": "partial",
   "theorems": [
    "Verif.Props.TrivistaMeta.C107_setup_partial",
    "Verif.Props.TrivistaMeta.C107_info",
    "Verif.Props.TrivistaMeta.C107_same",
    "Verif.Props.TrivistaMeta.C107_hardware",
    "Verif.Props.TrivistaMeta.C107_fails_groups",
    "Verif.Props.TrivistaMeta.C107_fails_rename",
    "Verif.Props.TrivistaMeta.C107_fails_number",
    "Verif.Props.TrivistaMeta.C107_fails_laser",
    "Verif.Props.TrivistaMeta.C107_fails_detector",
    "Verif.Props.TrivistaMeta.C107_fails_grating",
    "Verif.Props.TrivistaMeta.C107_fails_serial",
    "Verif.Props.TrivistaMeta.C107_fails_objective",
    "Verif.Props.TrivistaMeta.C107_fails_time",
    "Verif.Props.TrivistaMeta.C107_fails_title",
    "Verif.Props.TrivistaMeta.C107_fails_slit"
   ],
   "note": "Proved for groups with different names, or only with one; systems with one laser, detector or grating cannot be read, and groups can be lost."
  },
  {
   "property": "C108",
   "status": "partial",
   "theorems": [
    "Verif.Props.Phenom.C108_signals_partial",
    "Verif.Props.Phenom.C108_rejects",
    "Verif.Props.Phenom.C108_line_fails_calibration",
    "Verif.Props.Phenom.C108_map_fails_rectangular",
    "Verif.Props.Phenom.C108_picture_fails_missing",
    "Verif.Props.Phenom.C108_spot_fails_plain",
    "Verif.Props.Phenom.C108_free_fails_spot",
    "Verif.Props.Phenom.C108_free_fails_lost",
    "Verif.Props.Phenom.C108_date_fails_short"
   ],
   "note": "Proved for all versions and analyses in pictures with metadata; a line scan or map with its own calibration, maps in rectangular pictures and analyses outside of pictures are counterexamples."
  },
  {
   "property": "C109",
   "status": "partial",
   "theorems": [
    "Verif.Props.Phenom.C109_metadata_partial",
    "Verif.Props.Phenom.C109_msa_fails_acquisition",
    "Verif.Props.Phenom.C109_line_fails_elements",
    "Verif.Props.Phenom.C109_xml_fails_repeated",
    "Verif.Props.Phenom.C109_xml_fails_attributes"
   ],
   "note": "Proved for all fields and all elements of the XML without children and with a path of unique names; MSA analyses lose the acquisition of the picture, line scans and maps lose the elements."
  },
  {
   "property": "C110",
   "status": "proved",
   "theorems": [
    "Verif.Props.Delmic.C110_signals",
    "Verif.Props.Delmic.C110_rejects",
    "Verif.Props.Delmic.C110_scan_fails_sem",
    "Verif.Props.Delmic.C110_state_fails_missing",
    "Verif.Props.Delmic.C110_axis_fails_offset",
    "Verif.Props.Delmic.C110_labels_fails_repeated"
   ],
   "note": "Proved for all files whose acquisitions are complete or lack one of the needed parts, with a SEM image if there are angle-resolved images; without one the file cannot be read, entries without a state lose their acquisition, and repeated labels make the file unreadable (counterexamples)."
  },
  {
   "property": "C111",
   "status": "proved",
   "theorems": [
    "Verif.Props.Delmic.C111_metadata"
   ],
   "note": "Proved for all files as in C110."
  },
  {
   "property": "C112",
   "status": "partial",
   "theorems": [
    "Verif.Props.EmdNcem.C112_roundtrip_partial",
    "Verif.Props.EmdNcem.C112_fails_navigate",
    "Verif.Props.EmdNcem.C112_fails_type",
    "Verif.Props.EmdNcem.C112_fails_empty_units",
    "Verif.Props.EmdNcem.C112_fails_units",
    "Verif.Props.EmdNcem.C112_fails_slash",
    "Verif.Props.EmdNcem.C112_fails_root",
    "Verif.Props.EmdNcem.C112_fails_depth",
    "Verif.Props.EmdNcem.C112_fails_cbed",
    "Verif.Props.EmdNcem.C112_fails_scale",
    "Verif.Props.EmdNcem.C112_fails_chunks",
    "Verif.Props.EmdNcem.C112_fails_original"
   ],
   "note": "Proved for all signals whose title is no path, whose units have no underscores or brackets and whose scales survive rounding; the navigation flag and the signal type are lost, and the default chunks keep the wrong axes whole (counterexamples)."
  },
  {
   "property": "C113",
   "status": "partial",
   "theorems": [
    "Verif.Props.EmdNcem.C113_datasets",
    "Verif.Props.EmdNcem.C113_stacks_partial",
    "Verif.Props.EmdNcem.C113_rejects",
    "Verif.Props.EmdNcem.C113_stack_fails_squeeze",
    "Verif.Props.EmdNcem.C113_stack_fails_zero",
    "Verif.Props.EmdNcem.C113_stack_fails_same",
    "Verif.Props.EmdNcem.C113_stack_fails_similar",
    "Verif.Props.EmdNcem.C113_stack_fails_numbered",
    "Verif.Props.EmdNcem.C113_find_fails_root",
    "Verif.Props.EmdNcem.C113_axis_fails_single"
   ],
   "note": "Proved for all datasets without stacking, and for stacks of datasets of the same name and shape without axes of length one; the default stacking mixes groups whose names occur in other paths, and numbered groups are not stacked (counterexamples)."
  },
  {
   "property": "C114",
   "status": "partial",
   "theorems": [
    "Verif.Props.EmdVelox.C114_file_partial",
    "Verif.Props.EmdVelox.C114_rejects_select",
    "Verif.Props.EmdVelox.C114_rejects_frames",
    "Verif.Props.EmdVelox.C114_rejects_rebin",
    "Verif.Props.EmdVelox.C114_fails_eels_axes",
    "Verif.Props.EmdVelox.C114_fails_shape",
    "Verif.Props.EmdVelox.C114_fails_rebin",
    "Verif.Props.EmdVelox.C114_fails_uncalibrated",
    "Verif.Props.EmdVelox.C114_fails_no_pictures",
    "Verif.Props.EmdVelox.C114_fails_spectra",
    "Verif.Props.EmdVelox.C114_fails_lazy",
    "Verif.Props.EmdVelox.C114_fails_channels"
   ],
   "note": "Proved for files with complete metadata and pictures of one shape, with HDF5, JSON and units as external functions; the axes of EELS spectrum images do not fit, and other counterexamples."
  },
  {
   "property": "C115",
   "status": "partial",
   "theorems": [
    "Verif.Props.EmdVelox.C115_metadata_partial",
    "Verif.Props.EmdVelox.C115_fails_filename",
    "Verif.Props.EmdVelox.C115_fails_individual",
    "Verif.Props.EmdVelox.C115_fails_stale_name",
    "Verif.Props.EmdVelox.C115_fails_zone",
    "Verif.Props.EmdVelox.C115_fails_no_date"
   ],
   "note": "Proved for files with complete metadata; without number of its detector a picture has the name of another, and negative time zones stay in the time."
  },
  {
   "property": "C116",
   "status": "partial",
   "theorems": [
    "Verif.Props.Usid.C116_file_partial",
    "Verif.Props.Usid.C116_path",
    "Verif.Props.Usid.C116_rejects_path",
    "Verif.Props.Usid.C116_rejects_uneven",
    "Verif.Props.Usid.C116_rejects_shape",
    "Verif.Props.Usid.C116_parameters",
    "Verif.Props.Usid.C116_fails_documented",
    "Verif.Props.Usid.C116_fails_measurement",
    "Verif.Props.Usid.C116_fails_labels",
    "Verif.Props.Usid.C116_fails_descriptor"
   ],
   "note": "Proved for dimensions with different labels, with pyUSID as external functions; the attributes of the measurement are never read, and the documentation of ignore_non_uniform_dims says the opposite of the code."
  },
  {
   "property": "C117",
   "status": "partial",
   "theorems": [
    "Verif.Props.Usid.C117_roundtrip_partial",
    "Verif.Props.Usid.C117_attributes",
    "Verif.Props.Usid.C117_fails_navigate",
    "Verif.Props.Usid.C117_fails_metadata",
    "Verif.Props.Usid.C117_fails_single",
    "Verif.Props.Usid.C117_fails_order",
    "Verif.Props.Usid.C117_fails_keys",
    "Verif.Props.Usid.C117_fails_units"
   ],
   "note": "Proved for numbers and axes of more than one value when navigation axes come first; the kind of axis and the metadata do not come back."
  },
  {
   "property": "C118",
   "status": "partial",
   "theorems": [
    "Verif.Props.Tiff.C118_axes_partial",
    "Verif.Props.Tiff.C118_unreadable",
    "Verif.Props.Tiff.C118_data",
    "Verif.Props.Tiff.C118_reads",
    "Verif.Props.Tiff.C118_rejects",
    "Verif.Props.Tiff.C118_fails_exchanged",
    "Verif.Props.Tiff.C118_fails_unnamed",
    "Verif.Props.Tiff.C118_fails_imagej_units",
    "Verif.Props.Tiff.C118_fails_jeol_forced",
    "Verif.Props.Tiff.C118_fails_planar"
   ],
   "note": "Proved with tifffile as external, for square pixels in files of FEI, TVIPS and Olympus, where the two directions are exchanged, and for colours in the last axis."
  },
  {
   "property": "C119",
   "status": "partial",
   "theorems": [
    "Verif.Props.Tiff.C119_image_partial",
    "Verif.Props.Tiff.C119_stack_partial",
    "Verif.Props.Tiff.C119_fails_small",
    "Verif.Props.Tiff.C119_fails_latin1",
    "Verif.Props.Tiff.C119_fails_mixed",
    "Verif.Props.Tiff.C119_fails_no_units",
    "Verif.Props.Tiff.C119_fails_ascii",
    "Verif.Props.Tiff.C119_fails_spectrum"
   ],
   "note": "Proved with tifffile as external, for scales of at least 1e-8, which are cut after the eighth digit, and units that can be written; a width in micrometres changes the units of the height."
  },
  {
   "property": "C120",
   "status": "partial",
   "theorems": [
    "Verif.Props.Tiff.C120_original",
    "Verif.Props.Tiff.C120_date_partial",
    "Verif.Props.Tiff.C120_other_date",
    "Verif.Props.Tiff.C120_no_date",
    "Verif.Props.Tiff.C120_intensity",
    "Verif.Props.Tiff.C120_title_partial",
    "Verif.Props.Tiff.C120_jeol_date",
    "Verif.Props.Tiff.C120_mapping",
    "Verif.Props.Tiff.C120_mapping_jeol",
    "Verif.Props.Tiff.C120_filename",
    "Verif.Props.Tiff.C120_fails_date",
    "Verif.Props.Tiff.C120_fails_scanned"
   ],
   "note": "Proved for dates in the first format, in the second one without a description, and reports of JEOL; scanned images of JEOL have the wrong title."
  },
  {
   "property": "C121",
   "status": "partial",
   "theorems": [
    "Verif.Props.Tiff.C121_axes_partial",
    "Verif.Props.Tiff.C121_linear",
    "Verif.Props.Tiff.C121_description_partial",
    "Verif.Props.Tiff.C121_reads",
    "Verif.Props.Tiff.C121_fails_comma",
    "Verif.Props.Tiff.C121_fails_series"
   ],
   "note": "Proved for single streak images; values with commas end at the first one, and series have empty axes."
  },
  {
   "property": "C122",
   "status": "partial",
   "theorems": [
    "Verif.Props.Nexus.C122_signals_partial",
    "Verif.Props.Nexus.C122_default",
    "Verif.Props.Nexus.C122_list",
    "Verif.Props.Nexus.C122_reject",
    "Verif.Props.Nexus.C122_fails_external",
    "Verif.Props.Nexus.C122_fails_target",
    "Verif.Props.Nexus.C122_fails_texts",
    "Verif.Props.Nexus.C122_fails_single",
    "Verif.Props.Nexus.C122_fails_part",
    "Verif.Props.Nexus.C122_fails_key",
    "Verif.Props.Nexus.C122_fails_empty"
   ],
   "note": "Proved for files without attributes target with hardlinks_only, where external links are followed (counterexample); texts are read as signals, a single entry is not the default, and an empty dataset makes the file unreadable."
  },
  {
   "property": "C123",
   "status": "partial",
   "theorems": [
    "Verif.Props.Nexus.C123_axes_partial",
    "Verif.Props.Nexus.C123_plain",
    "Verif.Props.Nexus.C123_fails_descending",
    "Verif.Props.Nexus.C123_fails_values",
    "Verif.Props.Nexus.C123_fails_tolerance",
    "Verif.Props.Nexus.C123_fails_order",
    "Verif.Props.Nexus.C123_fails_same",
    "Verif.Props.Nexus.C123_fails_dot",
    "Verif.Props.Nexus.C123_fails_beside",
    "Verif.Props.Nexus.C123_fails_none"
   ],
   "note": "Proved for values in equal steps that ascend, and for names in the order of the dimensions or without dots; descending and uneven values are lost, and the interpretation marks the last axes of the list rather than the last dimensions."
  },
  {
   "property": "C124",
   "status": "partial",
   "theorems": [
    "Verif.Props.Nexus.C124_write_read_partial",
    "Verif.Props.Nexus.C124_fails_negative",
    "Verif.Props.Nexus.C124_fails_one",
    "Verif.Props.Nexus.C124_fails_unnamed",
    "Verif.Props.Nexus.C124_fails_values",
    "Verif.Props.Nexus.C124_fails_three",
    "Verif.Props.Nexus.C124_fails_data",
    "Verif.Props.Nexus.C124_fails_letters",
    "Verif.Props.Nexus.C124_fails_space",
    "Verif.Props.Nexus.C124_fails_title",
    "Verif.Props.Nexus.C124_fails_slash",
    "Verif.Props.Nexus.C124_fails_ten",
    "Verif.Props.Nexus.C124_fails_default"
   ],
   "note": "Proved for up to nine signals with named axes of positive scale, or unnamed axes without calibration; the tenth signal comes after the first, and other counterexamples."
  },
  {
   "property": "C125",
   "status": "partial",
   "theorems": [
    "Verif.Props.Nexus.C125_metadata_partial",
    "Verif.Props.Nexus.C125_fails_general",
    "Verif.Props.Nexus.C125_fails_keys",
    "Verif.Props.Nexus.C125_fails_list",
    "Verif.Props.Nexus.C125_fails_none",
    "Verif.Props.Nexus.C125_fails_numpy",
    "Verif.Props.Nexus.C125_fails_value",
    "Verif.Props.Nexus.C125_fails_only",
    "Verif.Props.Nexus.C125_fails_space",
    "Verif.Props.Nexus.C125_fails_dicts",
    "Verif.Props.Nexus.C125_fails_structure"
   ],
   "note": "Proved for numbers, texts, arrays with at least two elements and dictionaries of such, without General; one-element lists, None, lists of dictionaries and numbers of numpy do not come back. The search with metadata_key is modelled but has no theorem."
  },
  {
   "property": "C126",
   "status": "partial",
   "theorems": [
    "Verif.Props.JeolEds.C126_file_partial",
    "Verif.Props.JeolEds.C126_fails_no_lines",
    "Verif.Props.JeolEds.C126_fails_first",
    "Verif.Props.JeolEds.C126_fails_no_parameters",
    "Verif.Props.JeolEds.C126_fails_long_name"
   ],
   "note": "Proved for complete files with at least one line, names of at most the stored length and a table of parameters; other files raise or lose the table (counterexamples)."
  },
  {
   "property": "C127",
   "status": "partial",
   "theorems": [
    "Verif.Props.JeolPts.C127_events",
    "Verif.Props.JeolPts.C127_sum",
    "Verif.Props.JeolPts.C127_frames",
    "Verif.Props.JeolPts.C127_all",
    "Verif.Props.JeolPts.C127_axes_partial",
    "Verif.Props.JeolPts.C127_frame_axis_partial",
    "Verif.Props.JeolPtsFails.C127_fails_frame_list",
    "Verif.Props.JeolPtsFails.C127_fails_frame_time",
    "Verif.Props.JeolPtsFails.C127_fails_origin",
    "Verif.Props.JeolPtsFails.C127_fails_image_axes",
    "Verif.Props.JeolPtsFails.C127_fails_cutoff",
    "Verif.Props.JeolPtsFails.C127_fails_sweeps",
    "Verif.Props.JeolPtsFails.C127_fails_shift_list"
   ],
   "note": "The counts are proved for all options; the axes without shifts, and the frame axis for all frames without downsampling. The size of the frame axis, its scale and the offsets are wrong otherwise (counterexamples). The lazy array is not modelled here."
  },
  {
   "property": "C128",
   "status": "partial",
   "theorems": [
    "Verif.Props.JeolAsw.C128_archive",
    "Verif.Props.JeolAsw.C128_reader",
    "Verif.Props.JeolAsw.C128_skipped",
    "Verif.Props.JeolAsw.C128_not_archive",
    "Verif.Props.JeolAsw.C128_image_partial",
    "Verif.Props.JeolAsw.C128_not_image",
    "Verif.Props.JeolAsw.C128_fails_short",
    "Verif.Props.JeolAsw.C128_fails_long",
    "Verif.Props.JeolAsw.C128_fails_missing_file"
   ],
   "note": "Archives are proved for paths of POSIX, images for at least two pixels as many as the size says; otherwise pixels are filled with zeros or left out. The readers of .pts and .eds are those of C126 and C127."
  },
  {
   "property": "C129",
   "status": "proved",
   "theorems": [
    "Verif.Props.HspyFile.C129_file",
    "Verif.Props.HspyFile.C129_hspy",
    "Verif.Props.HspyFile.C129_zspy",
    "Verif.Props.HspyFails.C129_group_name",
    "Verif.Props.HspyOld.C129_empty",
    "Verif.Props.HspyFails.C129_fails_unnamed"
   ],
   "note": "Proved for every storable signal (the values of C18) with a title other than __unnamed__, which comes back empty (counterexample); h5py and zarr are external."
  },
  {
   "property": "C130",
   "status": "partial",
   "theorems": [
    "Verif.Props.HspyUpdate.C130_update_partial",
    "Verif.Props.HspyUpdate.C130_no_truncation",
    "Verif.Props.HspyUpdate.C130_lazy_own_file",
    "Verif.Props.HspyUpdate.C130_original_path",
    "Verif.Props.HspyUpdate.C130_fails_explicit_mode",
    "Verif.Props.HspyFails.C130_fails_removed",
    "Verif.Props.HspyFails.C130_fails_changed_kind",
    "Verif.Props.HspyFails.C130_fails_changed_title"
   ],
   "note": "The data and other experiments stay and the axes are replaced; false for metadata, which are merged with those in the file, for a changed title, and for a mode given by the user, with which no dataset can be created (counterexamples)."
  },
  {
   "property": "C131",
   "status": "partial",
   "theorems": [
    "Verif.Props.HspyOld.C131_version",
    "Verif.Props.HspyOld.C131_order",
    "Verif.Props.HspyOld.C131_current",
    "Verif.Props.HspyOld.C131_before_1_1",
    "Verif.Props.HspyOld.C131_results",
    "Verif.Props.HspyOld.C131_before_1_2",
    "Verif.Props.HspyOld.C131_microscope",
    "Verif.Props.HspyOld.C131_before_3_0",
    "Verif.Props.HspyOld.C131_before_3_0_moved",
    "Verif.Props.HspyOld.C131_before_3_0_only",
    "Verif.Props.HspyOld.C131_upgrade",
    "Verif.Props.HspyOld.C131_read",
    "Verif.Props.HspyFails.C131_fails_detectors_lost",
    "Verif.Props.HspyFails.C131_fails_sections_replaced",
    "Verif.Props.HspyFails.C131_fails_two_exposures"
   ],
   "note": "Every renamed item is found at its new place; sections that are already at the new place are replaced and their items lost, and of two exposure times one stays (counterexamples)."
  },
  {
   "property": "C132",
   "status": "partial",
   "theorems": [
    "Verif.Props.DMSignal.C132_axes_partial",
    "Verif.Props.DMSignal.C132_fails_xray_energy",
    "Verif.Props.DMSignal.C132_fails_more_calibrations"
   ],
   "note": "Proved for images with no more calibrations than dimensions; the energy axis of X-ray spectra is never named, and with more calibrations than dimensions they go to the wrong axes (counterexamples)."
  },
  {
   "property": "C133",
   "status": "partial",
   "theorems": [
    "Verif.Props.DMSignal.C133_pixels_partial",
    "Verif.Props.DMSignal.C133_lazy",
    "Verif.Props.DMSignal.C133_lazy_colours",
    "Verif.Props.DMSignal.C133_order",
    "Verif.Props.DMSignal.C133_rejects_short",
    "Verif.Props.DMSignal.C133_rejects_count",
    "Verif.Props.DMSignal.C133_rejects_more",
    "Verif.Props.DMSignal.C133_packed",
    "Verif.Props.DMSignal.C133_rejects_type",
    "Verif.Props.DMSignal.C133_images",
    "Verif.Props.DMSignal.C133_file",
    "Verif.Props.DMSignal.C133_no_images",
    "Verif.Props.DMSignal.C133_fails_big_endian"
   ],
   "note": "Proved for little-endian data and values of one byte; data of big-endian files are read with bytes reversed (counterexample). Colours cannot be read lazily. Lazy packed complex images are not modelled."
  },
  {
   "property": "C134",
   "status": "proved",
   "theorems": [
    "Verif.Props.DMSignal.C134_mode",
    "Verif.Props.DMSignal.C134_quantity",
    "Verif.Props.DMSignal.C134_exposure",
    "Verif.Props.DMSignal.C134_microscope"
   ],
   "note": "The functions applied to the tags; the table that says which tag they are applied to is not modelled."
  },
  {
   "property": "C135",
   "status": "partial",
   "theorems": [
    "Verif.Props.Bruker.C135_maps_partial",
    "Verif.Props.Bruker.C135_cutoff",
    "Verif.Props.Bruker.C135_reads",
    "Verif.Props.Bruker.C135_rejects_index",
    "Verif.Props.Bruker.C135_rejects_zero",
    "Verif.Props.Bruker.C135_indexes",
    "Verif.Props.Bruker.C135_fails_width_scale",
    "Verif.Props.Bruker.C135_fails_ten",
    "Verif.Props.Bruker.C135_fails_two_lines",
    "Verif.Props.Bruker.C135_fails_auto_enlarges"
   ],
   "note": "Proved for equal steps of rows and columns, since the width is scaled with the step of the height; numbers of maps have one digit; of several lines of an element the last stays (counterexamples). The decoders of the maps are those of C47 to C50."
  },
  {
   "property": "C136",
   "status": "partial",
   "theorems": [
    "Verif.Props.Bruker.C136_base64",
    "Verif.Props.Bruker.C136_images_partial",
    "Verif.Props.Bruker.C136_rejects_size",
    "Verif.Props.Bruker.C136_select",
    "Verif.Props.Bruker.C136_fails_no_unnamed",
    "Verif.Props.Bruker.C136_fails_overviews",
    "Verif.Props.Bruker.C136_fails_blank"
   ],
   "note": "Proved for files with an image without a name; without one the reader stops, overview images after the first are not read (counterexamples). Markers are not modelled."
  },
  {
   "property": "C137",
   "status": "partial",
   "theorems": [
    "Verif.Props.Bruker.C137_channels",
    "Verif.Props.Bruker.C137_spectrum_partial",
    "Verif.Props.Bruker.C137_dates",
    "Verif.Props.Bruker.C137_rejects_dates",
    "Verif.Props.Bruker.C137_fails_no_date",
    "Verif.Props.Bruker.C137_fails_no_life_time",
    "Verif.Props.Bruker.C137_fails_name",
    "Verif.Props.Bruker.C137_fails_one_element"
   ],
   "note": "Proved for spectra with a date and both times; without a date the reader stops, and a single element comes as a text (counterexamples)."
  },
  {
   "property": "C138",
   "status": "partial",
   "theorems": [
    "Verif.Props.MrcFile.C138_reads_partial",
    "Verif.Props.MrcFile.C138_rejects_mode",
    "Verif.Props.MrcFile.C138_rejects_short",
    "Verif.Props.MrcFile.C138_rejects_header",
    "Verif.Props.MrcFile.C138_fails_big_endian",
    "Verif.Props.MrcFile.C138_fails_no_navigation"
   ],
   "note": "Proved for pixels that are bytes or little-endian and images of more than one row and column (C54): the byte order of the user is used for the header only (counterexample)."
  },
  {
   "property": "C139",
   "status": "partial",
   "theorems": [
    "Verif.Props.MrcFile.C139_scan_partial",
    "Verif.Props.MrcFile.C139_given",
    "Verif.Props.MrcFile.C139_custom_partial",
    "Verif.Props.MrcFile.C139_movie_partial",
    "Verif.Props.MrcFile.C139_positions_partial",
    "Verif.Props.MrcFile.C139_lines_partial",
    "Verif.Props.MrcFile.C139_rejects_positions",
    "Verif.Props.MrcFile.C139_fails_equals",
    "Verif.Props.MrcFile.C139_fails_one_position",
    "Verif.Props.MrcFile.C139_fails_repeats",
    "Verif.Props.MrcFile.C139_fails_line",
    "Verif.Props.MrcFile.C139_fails_sum"
   ],
   "note": "Proved for scans without times, positions that are visited once and movies whose frames are not summed; otherwise the axes are named or sized wrongly, or the time step is wrong (counterexamples). The scales are those of C36."
  },
  {
   "property": "C140",
   "status": "partial",
   "theorems": [
    "Verif.Props.TofwerkFile.C140_reads_partial",
    "Verif.Props.TofwerkFile.C140_rejects",
    "Verif.Props.TofwerkFile.C140_titles",
    "Verif.Props.TofwerkFile.C140_fails_writes",
    "Verif.Props.TofwerkFile.C140_fails_segments",
    "Verif.Props.TofwerkFile.C140_fails_fill",
    "Verif.Props.TofwerkFile.C140_fails_images",
    "Verif.Props.TofwerkFile.C140_fails_offset"
   ],
   "note": "Proved for files whose data sets have the sizes of the attributes and whose images have one shape and are not fewer than the slices; otherwise axes and data differ or reading fails, and the depth axis always begins at zero (counterexamples)."
  },
  {
   "property": "C141",
   "status": "partial",
   "theorems": [
    "Verif.Props.TofwerkFile.C141_time",
    "Verif.Props.TofwerkFile.C141_masses",
    "Verif.Props.TofwerkFile.C141_pixel_partial",
    "Verif.Props.TofwerkFile.C141_channels_partial",
    "Verif.Props.TofwerkFile.C141_clock_partial",
    "Verif.Props.TofwerkFile.C141_fails_pixel",
    "Verif.Props.TofwerkFile.C141_fails_channels",
    "Verif.Props.TofwerkFile.C141_fails_values",
    "Verif.Props.TofwerkFile.C141_fails_interval"
   ],
   "note": "Times and mass ranges for all files; the pixel size for square fields, channels of one digit that are 0 or 1, and clocks with a sample interval; otherwise counterexamples."
  },
  {
   "property": "C142",
   "status": "partial",
   "theorems": [
    "Verif.Props.DigitalsurfMeta.C142_date",
    "Verif.Props.DigitalsurfMeta.C142_time_partial",
    "Verif.Props.DigitalsurfMeta.C142_unknown",
    "Verif.Props.DigitalsurfMeta.C142_others",
    "Verif.Props.DigitalsurfMeta.C142_back_partial",
    "Verif.Props.DigitalsurfMeta.C142_no_date",
    "Verif.Props.DigitalsurfMeta.C142_quantity",
    "Verif.Props.DigitalsurfMeta.C142_brackets",
    "Verif.Props.DigitalsurfMeta.C142_quantity_partial",
    "Verif.Props.DigitalsurfMeta.C142_fails_midnight",
    "Verif.Props.DigitalsurfMeta.C142_fails_alone",
    "Verif.Props.DigitalsurfMeta.C142_fails_zone",
    "Verif.Props.DigitalsurfMeta.C142_fails_words",
    "Verif.Props.DigitalsurfMeta.C142_fails_year"
   ],
   "note": "Proved with dateutil as external, for years of four digits, times other than midnight, date and time together, and quantities of one word or with units in parentheses; otherwise counterexamples."
  },
  {
   "property": "C143",
   "status": "partial",
   "theorems": [
    "Verif.Props.DigitalsurfMeta.C143_parsable",
    "Verif.Props.DigitalsurfMeta.C143_auto_partial",
    "Verif.Props.DigitalsurfMeta.C143_back_partial",
    "Verif.Props.DigitalsurfMeta.C143_fails_empty",
    "Verif.Props.DigitalsurfMeta.C143_fails_underscore"
   ],
   "note": "Which comments are parsed is proved for all; what is written for non-empty parsed metadata; empty ones are not passed over, and titles with underscores may collide (counterexamples)."
  },
  {
   "property": "C144",
   "status": "partial",
   "theorems": [
    "Verif.Props.DigitalsurfMeta.C144_quantities_partial",
    "Verif.Props.DigitalsurfMeta.C144_singles",
    "Verif.Props.DigitalsurfMeta.C144_stage",
    "Verif.Props.DigitalsurfMeta.C144_other",
    "Verif.Props.DigitalsurfMeta.C144_fails_exposure",
    "Verif.Props.DigitalsurfMeta.C144_fails_blaze"
   ],
   "note": "All quantities but the time of integration, whose units are the time, and the blaze, whose units are those of the central wavelength (counterexamples)."
  },
  {
   "property": "C145",
   "status": "partial",
   "theorems": [
    "Verif.Props.ImageWrite.C145_plain",
    "Verif.Props.ImageWrite.C145_figure_partial",
    "Verif.Props.ImageWrite.C145_refused",
    "Verif.Props.ImageWrite.C145_fails_equal",
    "Verif.Props.ImageWrite.C145_fails_capitals",
    "Verif.Props.ImageWrite.C145_fails_stack"
   ],
   "note": "Proved for images without further axes, aspects given as numbers and formats known by matplotlib; texts as aspect, extensions in capitals and stacks are counterexamples."
  },
  {
   "property": "C146",
   "status": "partial",
   "theorems": [
    "Verif.Props.ImageWrite.C146_bar",
    "Verif.Props.ImageWrite.C146_refused",
    "Verif.Props.ImageWrite.C146_no_library",
    "Verif.Props.ImageWrite.C146_alone_partial",
    "Verif.Props.ImageWrite.C146_fails_dimension"
   ],
   "note": "Bars of single images are proved; sequences of images with a dictionary of options just if the units need no dimension (counterexample)."
  },
  {
   "property": "C147",
   "status": "partial",
   "theorems": [
    "Verif.Props.PantarheiMeta.C147_numbers",
    "Verif.Props.PantarheiMeta.C147_texts",
    "Verif.Props.PantarheiMeta.C147_back_partial",
    "Verif.Props.PantarheiMeta.C147_fails_title",
    "Verif.Props.PantarheiMeta.C147_fails_date",
    "Verif.Props.PantarheiMeta.C147_fails_type",
    "Verif.Props.PantarheiMeta.C147_fails_aperture",
    "Verif.Props.PantarheiMeta.C147_fails_mode",
    "Verif.Props.PantarheiMeta.C147_fails_changed"
   ],
   "note": "Reading is proved for all files; what is written comes back for metadata as described in Writable; for others there are counterexamples."
  },
  {
   "property": "C148",
   "status": "partial",
   "theorems": [
    "Verif.Props.MerlinFile.C148_header",
    "Verif.Props.MerlinFile.C148_hdr_partial",
    "Verif.Props.MerlinFile.C148_fails_kind",
    "Verif.Props.MerlinFile.C148_fails_capitals",
    "Verif.Props.MerlinFile.C148_fails_folder"
   ],
   "note": "The header is proved for all kinds that are known; the header file for names with just one .mib, in small letters (counterexamples)."
  },
  {
   "property": "C149",
   "status": "partial",
   "theorems": [
    "Verif.Props.MerlinFile.C149_trigger",
    "Verif.Props.MerlinFile.C149_times_partial",
    "Verif.Props.MerlinFile.C149_even",
    "Verif.Props.MerlinFile.C149_fails_jitter",
    "Verif.Props.MerlinFile.C149_fails_zero"
   ],
   "note": "Proved for several frames in a trigger, and for steps in time that are the same in all lines; irregular steps and no frames in a trigger are counterexamples."
  },
  {
   "property": "C150",
   "status": "partial",
   "theorems": [
    "Verif.Props.MerlinFile.C150_images_partial",
    "Verif.Props.MerlinFile.C150_fails_row"
   ],
   "note": "Proved for images of at least two rows and columns and shapes of all frames; one row is a counterexample."
  },
  {
   "property": "C151",
   "status": "partial",
   "theorems": [
    "Verif.Props.TiaMeta.C151_values_partial",
    "Verif.Props.TiaMeta.C151_mapped",
    "Verif.Props.TiaMeta.C151_microscope",
    "Verif.Props.TiaMeta.C151_fails_blank",
    "Verif.Props.TiaMeta.C151_fails_empty",
    "Verif.Props.TiaMeta.C151_fails_exposure",
    "Verif.Props.TiaMeta.C151_fails_position",
    "Verif.Props.TiaMeta.C151_fails_true_image"
   ],
   "note": "Proved for elements with a text or elements in them and entries with values; line breaks between elements hide them, entries with units and no value stop the reader, headers of images are lost and the exposure is a text (counterexamples). The mapping is applied by HyperSpy, as modelled."
  },
  {
   "property": "C152",
   "status": "partial",
   "theorems": [
    "Verif.Props.TiaMeta.C152_units",
    "Verif.Props.TiaMeta.C152_default",
    "Verif.Props.TiaMeta.C152_fails_info"
   ],
   "note": "Proved for files with a mode and AcquireInfo; without AcquireInfo diffraction patterns are in real space (counterexample)."
  },
  {
   "property": "C153",
   "status": "partial",
   "theorems": [
    "Verif.Props.RippleFile.C153_axes_partial",
    "Verif.Props.RippleFile.C153_fails_column",
    "Verif.Props.RippleFile.C153_fails_stack",
    "Verif.Props.RippleFile.C153_fails_single"
   ],
   "note": "Proved for spectra of more than one channel, stacks of more than one image and images of more than one row and column, with texts as in C27 and numbers that come back from their texts; otherwise counterexamples."
  },
  {
   "property": "C154",
   "status": "partial",
   "theorems": [
    "Verif.Props.RippleFile.C154_metadata_partial",
    "Verif.Props.RippleFile.C154_fails_sem",
    "Verif.Props.RippleFile.C154_fails_eds",
    "Verif.Props.RippleFile.C154_fails_tilt",
    "Verif.Props.RippleFile.C154_fails_other"
   ],
   "note": "Proved for EELS and EDS in a TEM; a SEM comes back as TEM, EDS without an instrument is not written, and for other signals the instrument is lost (counterexamples)."
  },
  {
   "property": "C155",
   "status": "partial",
   "theorems": [
    "Verif.Props.RippleFile.C155_inca_partial",
    "Verif.Props.RippleFile.C155_fails_order",
    "Verif.Props.RippleFile.C155_fails_title"
   ],
   "note": "Proved for values of one word and headers with the layout in the last line; otherwise lines are joined and values cut (counterexamples)."
  },
  {
   "property": "C156",
   "status": "partial",
   "theorems": [
    "Verif.Props.BlockfileScale.C156_file_partial",
    "Verif.Props.BlockfileScale.C156_refused",
    "Verif.Props.BlockfileScale.C156_integers",
    "Verif.Props.BlockfileScale.C156_fails_reversed",
    "Verif.Props.BlockfileScale.C156_fails_constant",
    "Verif.Props.BlockfileScale.C156_fails_wrap"
   ],
   "note": "Proved in exact arithmetic for data that are not constant, ranges that are not empty, and without scaling for numbers of the range of bytes; otherwise counterexamples."
  },
  {
   "property": "C157",
   "status": "partial",
   "theorems": [
    "Verif.Props.BlockfileScale.C157_image_partial",
    "Verif.Props.BlockfileScale.C157_refused",
    "Verif.Props.BlockfileScale.C157_fails_line",
    "Verif.Props.BlockfileScale.C157_fails_line_array",
    "Verif.Props.BlockfileScale.C157_fails_stored"
   ],
   "note": "Proved for scans of two dimensions; lines are not written without an image or with one of their shape, and images of HyperSpy are not checked (counterexamples)."
  },
  {
   "property": "C158",
   "status": "partial",
   "theorems": [
    "Verif.Props.BlockfileScale.C158_scales_partial",
    "Verif.Props.BlockfileScale.C158_mapped",
    "Verif.Props.BlockfileScale.C158_fails_twice",
    "Verif.Props.BlockfileScale.C158_fails_line",
    "Verif.Props.BlockfileScale.C158_fails_large",
    "Verif.Props.BlockfileScale.C158_fails_two",
    "Verif.Props.BlockfileScale.C158_fails_camera"
   ],
   "note": "Proved for scans of two dimensions and steps of at most a metre that are the same for rows and columns; units are converted by pint, external. Otherwise counterexamples; the axes of the caller are converted in place, so that a second file is wrong."
  },
  {
   "property": "C159",
   "status": "partial",
   "theorems": [
    "Verif.Props.RenishawMeta.C159_date_partial",
    "Verif.Props.RenishawMeta.C159_texts",
    "Verif.Props.RenishawMeta.C159_fails_second",
    "Verif.Props.RenishawMeta.C159_fails_end"
   ],
   "note": "Proved for times until 2057 that are not within two microseconds of a full second (floating-point division as external with this error); next to a full second the next second is reported, and files whose end is no date are not read (counterexamples)."
  },
  {
   "property": "C160",
   "status": "partial",
   "theorems": [
    "Verif.Props.RenishawMeta.C160_laser_partial",
    "Verif.Props.RenishawMeta.C160_grating",
    "Verif.Props.RenishawMeta.C160_detector_partial",
    "Verif.Props.RenishawMeta.C160_fails_wavenumber",
    "Verif.Props.RenishawMeta.C160_fails_lasers",
    "Verif.Props.RenishawMeta.C160_fails_matched"
   ],
   "note": "Proved for entries that occur once; of several lasers the first one is taken, without a wavenumber the file is not read, and entries that WXDM holds with their names are not used (counterexamples)."
  },
  {
   "property": "C161",
   "status": "partial",
   "theorems": [
    "Verif.Props.RenishawMeta.C161_marker_partial",
    "Verif.Props.RenishawMeta.C161_fails_line",
    "Verif.Props.RenishawMeta.C161_fails_unfinished"
   ],
   "note": "Proved for complete maps; for lines the points are outside of the rectangle, and unfinished maps are shown as planned (counterexamples)."
  },
  {
   "property": "C162",
   "status": "partial",
   "theorems": [
    "Verif.Props.TvipsMeta.C162_pixels_partial",
    "Verif.Props.TvipsMeta.C162_fails_pixel",
    "Verif.Props.TvipsMeta.C162_fails_fine",
    "Verif.Props.TvipsMeta.C162_fails_negative",
    "Verif.Props.TvipsMeta.C162_fails_single",
    "Verif.Props.TvipsMeta.C162_fails_mode",
    "Verif.Props.TvipsMeta.C162_fails_units"
   ],
   "note": "Proved when the first axis has the scale of pixels and nothing is negative; otherwise the scale of the first axis is written as pixel size, negative offsets and single images raise, and fractions are lost (counterexamples). Units are converted by pint, external."
  },
  {
   "property": "C163",
   "status": "partial",
   "theorems": [
    "Verif.Props.TvipsMeta.C163_times_partial",
    "Verif.Props.TvipsMeta.C163_fails_zone",
    "Verif.Props.TvipsMeta.C163_fails_fraction",
    "Verif.Props.TvipsMeta.C163_fails_fine"
   ],
   "note": "Proved for starts at whole seconds, steps of whole milliseconds and local time UTC; otherwise counterexamples."
  },
  {
   "property": "C164",
   "status": "partial",
   "theorems": [
    "Verif.Props.TvipsMeta.C164_stage_partial",
    "Verif.Props.TvipsMeta.C164_fails_tilt",
    "Verif.Props.TvipsMeta.C164_fails_defocus",
    "Verif.Props.TvipsMeta.C164_fails_camera",
    "Verif.Props.TvipsMeta.C164_fails_both",
    "Verif.Props.TvipsMeta.C164_fails_energy"
   ],
   "note": "Proved for position of the stage, current, whole energies and magnifications of images; tilts and defocus are lost and camera lengths are read as magnifications (counterexamples)."
  },
  {
   "property": "C165",
   "status": "partial",
   "theorems": [
    "Verif.Props.TiffMapping.C165_fei_partial",
    "Verif.Props.TiffMapping.C165_fei_date",
    "Verif.Props.TiffMapping.C165_fei_found",
    "Verif.Props.TiffMapping.C165_zeiss_partial",
    "Verif.Props.TiffMapping.C165_tvips",
    "Verif.Props.TiffMapping.C165_time_partial",
    "Verif.Props.TiffMapping.C165_jeol",
    "Verif.Props.TiffMapping.C165_fails_stage",
    "Verif.Props.TiffMapping.C165_fails_energy",
    "Verif.Props.TiffMapping.C165_fails_unitless",
    "Verif.Props.TiffMapping.C165_fails_magnification",
    "Verif.Props.TiffMapping.C165_fails_hour",
    "Verif.Props.TiffMapping.C165_fails_day"
   ],
   "note": "Proved for energies, currents, distances, exposures, names and modes; the stage of FEI stays in metres, units of Zeiss energies and magnifications are ignored, positions without units raise, and times of TVIPS before ten o'clock or after a day are no ISO times (counterexamples). The table is applied by HyperSpy, external."
  },
  {
   "property": "C166",
   "status": "partial",
   "theorems": [
    "Verif.Props.PhenomMapping.C166_values",
    "Verif.Props.PhenomMapping.C166_energy_partial",
    "Verif.Props.PhenomMapping.C166_found",
    "Verif.Props.PhenomMapping.C166_file",
    "Verif.Props.PhenomMapping.C166_fails_unit",
    "Verif.Props.PhenomMapping.C166_fails_position",
    "Verif.Props.PhenomMapping.C166_fails_empty"
   ],
   "note": "Proved for angles, times, resolution, distances and name of the microscope, from the bytes of the file (with C109); the unit of the high voltage of the picture is ignored, and positions with a unit or without text raise (counterexamples). The table is applied by HyperSpy, external."
  },
  {
   "property": "C167",
   "status": "partial",
   "theorems": [
    "Verif.Props.TvipsNames.C167_written",
    "Verif.Props.TvipsNames.C167_first",
    "Verif.Props.TvipsNames.C167_rejects",
    "Verif.Props.TvipsNames.C167_parts_partial",
    "Verif.Props.TvipsNames.C167_frames_partial",
    "Verif.Props.TvipsNames.C167_fails_stale",
    "Verif.Props.TvipsNames.C167_fails_bare"
   ],
   "note": "Proved with C29 for folders without a file with the next number; left-over files of an older, longer recording are read as part of the new one, and a file called _000.tvips is written but not accepted (counterexamples)."
  },
  {
   "property": "C168",
   "status": "partial",
   "theorems": [
    "Verif.Props.TofwerkMeta.C168_numbers",
    "Verif.Props.TofwerkMeta.C168_texts",
    "Verif.Props.TofwerkMeta.C168_beam_partial",
    "Verif.Props.TofwerkMeta.C168_pressure",
    "Verif.Props.TofwerkMeta.C168_reads",
    "Verif.Props.TofwerkMeta.C168_once",
    "Verif.Props.TofwerkMeta.C168_original_partial",
    "Verif.Props.TofwerkMeta.C168_fails_beam",
    "Verif.Props.TofwerkMeta.C168_fails_version",
    "Verif.Props.TofwerkMeta.C168_fails_array",
    "Verif.Props.TofwerkMeta.C168_fails_segments",
    "Verif.Props.TofwerkMeta.C168_fails_name"
   ],
   "note": "Proved but for: all values of the beam are left out if one is missing, a version stored as bytes and texts stored as arrays are given with the marks of Python, no segments are given without their number, attributes with a name that the reader uses are replaced (counterexamples)."
  },
  {
   "property": "C169",
   "status": "partial",
   "theorems": [
    "Verif.Props.ExifNames.C169_tags_partial",
    "Verif.Props.ExifNames.C169_only",
    "Verif.Props.ExifNames.C169_none",
    "Verif.Props.ExifNames.C169_fails_unknown",
    "Verif.Props.ExifNames.C169_fails_same"
   ],
   "note": "Proved for tags that have a name of their own; of the tags without a name, and of tags with the same name, only the last is kept (counterexamples)."
  },
  {
   "property": "C170",
   "status": "partial",
   "theorems": [
    "Verif.Props.DigitalsurfPost.C170_colours_partial",
    "Verif.Props.DigitalsurfPost.C170_reads",
    "Verif.Props.DigitalsurfPost.C170_binary",
    "Verif.Props.DigitalsurfPost.C170_fails_limit",
    "Verif.Props.DigitalsurfPost.C170_fails_negative",
    "Verif.Props.DigitalsurfPost.C170_fails_fraction",
    "Verif.Props.DigitalsurfPost.C170_fails_dark"
   ],
   "note": "Proved for whole numbers up to 65535; 65536 becomes 0, negative numbers and fractions are not noticed, and images of 16 bits without bright values become images of 8 bits (counterexamples)."
  },
  {
   "property": "C171",
   "status": "partial",
   "theorems": [
    "Verif.Props.RenishawNested.C171_nested_partial",
    "Verif.Props.RenishawNested.C171_fails_clash",
    "Verif.Props.RenishawNested.C171_fails_gap"
   ],
   "note": "Proved for parts whose identifiers begin with that of another part only if they are in it; otherwise values appear at two places; parts in a part that has nothing to match are lost, or the file is not read (counterexamples)."
  },
  {
   "property": "C172",
   "status": "partial",
   "theorems": [
    "Verif.Props.MrcFei.C172_metadata_partial",
    "Verif.Props.MrcFei.C172_original",
    "Verif.Props.MrcFei.C172_pixel",
    "Verif.Props.MrcFei.C172_none",
    "Verif.Props.MrcFei.C172_fails_single",
    "Verif.Props.MrcFei.C172_fails_cut",
    "Verif.Props.MrcFei.C172_fails_units"
   ],
   "note": "Every image with a record finds its numbers in the lists, which always have 1024 numbers, also for a single image; headers that are cut off are lost, and positions stay in metres (counterexamples)."
  },
  {
   "property": "C173",
   "status": "partial",
   "theorems": [
    "Verif.Props.IsoDate.C173_utc",
    "Verif.Props.IsoDate.C173_named",
    "Verif.Props.IsoDate.C173_own",
    "Verif.Props.IsoDate.C173_offset_partial",
    "Verif.Props.IsoDate.C173_rejects",
    "Verif.Props.IsoDate.C173_texts_partial",
    "Verif.Props.IsoDate.C173_back_partial",
    "Verif.Props.IsoDate.C173_fails_abbreviation",
    "Verif.Props.IsoDate.C173_fails_own_zone"
   ],
   "note": "Proved with dateutil as external, from 1899-12-30 on and for UTC, zones with a known name and numeric zones; abbreviations that are not known are taken as UTC, and a zone within the text of the time is lost (counterexamples)."
  }
 ]
}