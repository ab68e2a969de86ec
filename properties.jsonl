{"id": "C01", "title": "Dense decoding of an EDS event stream is exact", "statement": "Loading a Thermo Fisher/FEI event stream into memory frame by frame (stream_to_array with sum_frames=False) returns an array whose value at (frame, y, x, energy bin) is exactly the number of events of that bin recorded between the pixel markers of that frame and pixel, for every requested frame range and energy rebinning, modulo the range of the requested dtype; nothing outside the requested frames is counted.", "quantifier": "all event streams, all map sizes, all channel counts, rebin factors and all frame ranges first <= frame < last", "why_tests_cant": "The decoder is a state machine over an unbounded stream; unit tests check a few streams with one geometry, never every interleaving of empty pixels, frame ends and range boundaries.", "anchors": ["rsciio/utils/_fei_stream_readers.py: stream_to_array, _fill_array_with_stream"]}
{"id": "C02", "title": "Summing frames while loading equals loading the frames and summing them", "statement": "stream_to_array with sum_frames=True returns, at every (y, x, bin), the sum over the requested frames of what sum_frames=False returns (modulo the dtype range).", "quantifier": "all streams, geometries, rebin factors and frame ranges", "why_tests_cant": "Two separately written loops must agree on all streams; tests compare them on single files.", "anchors": ["rsciio/utils/_fei_stream_readers.py: _fill_array_with_stream_sum_frames, _fill_array_with_stream"]}
{"id": "C03", "title": "Lazy (sparse) and in-memory loading of an event stream give the same counts", "statement": "For a non-empty frame range, the sparse array returned for lazy loading holds, at every index, exactly the count that in-memory loading finds in that pixel and bin (before dtype wrap-around), with and without frame summing.", "quantifier": "all streams, geometries, rebin factors and non-empty frame ranges", "why_tests_cant": "The sparse reader uses run-length accumulation with different skip logic; agreement needs an inductive argument over the stream.", "anchors": ["rsciio/utils/_fei_stream_readers.py: _stream_to_sparse_COO_array, _stream_to_sparse_COO_array_sum_frames, stream_to_sparse_COO_array"]}
{"id": "C04", "title": "Selecting frames equals slicing the full load", "statement": "Loading frames [a, b) of a stream returns exactly the slice [a:b] of what loading all frames returns.", "quantifier": "all streams, geometries and ranges a <= b <= n", "why_tests_cant": "Depends on every boundary position in every stream.", "anchors": ["rsciio/utils/_fei_stream_readers.py: stream_to_array"]}
{"id": "C05", "title": "array_to_stream is inverted by stream_to_array", "statement": "For every 3-D or 4-D array of counts, converting it to an event stream and loading the stream back with the same geometry returns the same array.", "quantifier": "all shapes with at least one pixel, all count values, channel numbers below 65535", "why_tests_cant": "Round trip over an infinite set of arrays.", "anchors": ["rsciio/utils/_fei_stream_readers.py: array_to_stream, stream_to_array"]}
{"id": "C06", "title": "Chunk slices tile the array exactly", "statement": "For every per-axis chunking that adds up to the shape, the slices computed for lazy loading cover every element of the array exactly once, each slice lies inside the array and has the size of its chunk, so a chunk-by-chunk load assembles to the same array as one whole memory map.", "quantifier": "all numbers of dimensions, shapes and chunkings", "why_tests_cant": "Unbounded dimensions, sizes and chunkings.", "anchors": ["rsciio/utils/_distributed.py: get_chunk_slice, slice_memmap, memmap_distributed"]}
{"id": "C07", "title": "Arbitrary scan positions place each frame where it was recorded", "statement": "When a list of scan positions is given, the lazily loaded array contains at each scan position the last frame recorded there and zeros at positions that were never visited, for every chunking.", "quantifier": "all position lists, navigation shapes and chunkings", "why_tests_cant": "Depends on every list of positions (duplicates, gaps, negative entries) and every chunk layout.", "anchors": ["rsciio/utils/_distributed.py: get_arbitrary_chunk_slice, slice_memmap"]}
{"id": "C08", "title": "RGB(A) conversion is lossless", "statement": "Converting an 8- or 16-bit RGB(A) structured array to a regular array and back (and conversely) returns the same pixels; arrays that are not RGB are returned unchanged and unsupported dtypes or channel counts are rejected with ValueError.", "quantifier": "all array shapes and pixel values, all dtypes of the model", "why_tests_cant": "Round trip over an infinite set plus rejection of every other dtype.", "anchors": ["rsciio/utils/rgb.py: is_rgb, is_rgba, is_rgbx, rgbx2regular_array, regular_array2rgbx"]}
{"id": "C09", "title": "Header records survive conversion to a dictionary and back", "statement": "Converting a one-element structured header to a dictionary and back with the same dtype returns the same header, and keys that are not in the dtype are ignored.", "quantifier": "all header layouts and contents", "why_tests_cant": "Infinite set of layouts.", "anchors": ["rsciio/utils/_array.py: sarray2dict, dict2sarray"]}
{"id": "C10", "title": "A path set in a metadata tree can be read back and leaves other paths alone", "statement": "After add_node/set_item on a dotted path of the metadata tree, has_item of that path is true, and every path that is not below an overwritten leaf keeps its value.", "quantifier": "all trees and dotted paths, all sequences of operations", "why_tests_cant": "Histories of operations are unbounded.", "anchors": ["rsciio/utils/_dictionary.py: DTBox.add_node, set_item, has_item"]}
{"id": "C11", "title": "Dumping a dictionary lists every leaf once with the requested separators", "statement": "dump_dictionary returns one line per leaf, in order, each with its full key path joined by the given node separator and its value after the given value separator.", "quantifier": "all nested dictionaries and separators", "why_tests_cant": "Nesting depth is unbounded and the separators must reach every level.", "anchors": ["rsciio/utils/_dictionary.py: dump_dictionary"]}
{"id": "C12", "title": "incremental_filename never returns an existing file", "statement": "incremental_filename returns the requested name when it is free, and otherwise the name with the smallest free counter -1, -2, ... appended before the extension; it never returns a name that exists, and only the stem changes.", "quantifier": "all directory contents and names", "why_tests_cant": "Every set of existing files.", "anchors": ["rsciio/utils/path.py: incremental_filename, append2pathname"]}
{"id": "C13", "title": "An existing file is overwritten only after an explicit yes", "statement": "overwrite returns True for an existing path only if the user's accepted answer was y, returns False only for n or when no answer can be read, always returns True for a path that does not exist, and accepts upper and lower case answers alike at every prompt.", "quantifier": "all sequences of user answers and all file-system states", "why_tests_cant": "Interactive histories are unbounded.", "anchors": ["rsciio/utils/path.py: overwrite"]}
{"id": "C14", "title": "Serial dates convert back to the same second", "statement": "datetime_to_serial_date followed by serial_date_to_datetime returns the same date and time to the second, for dates before and after the epoch 1899-12-30.", "quantifier": "all datetimes (to the second)", "why_tests_cant": "Every date, in particular those before the epoch.", "anchors": ["rsciio/utils/_date_time.py: datetime_to_serial_date, serial_date_to_datetime"]}
{"id": "C15", "title": "The data offset found in a .npy member is exact", "statement": "For every well-formed .npy header of version 1, 2 or 3, the reported data offset is the number of bytes before the array data, and every other version number is rejected with ValueError.", "quantifier": "all header texts and versions", "why_tests_cant": "Unbounded header lengths and versions.", "anchors": ["rsciio/utils/_tools.py: inspect_npy_bytes"]}
{"id": "C16", "title": "Binary integers are decoded exactly in both byte orders", "statement": "read_short/ushort/int/uint/long/ulong/byte return the value whose two's-complement encoding in the given byte order is in the file, advance the file by exactly the width, fail on a short file and reject every byte order other than big and little.", "quantifier": "all values, widths, byte orders and file contents", "why_tests_cant": "Full range of 8 to 64 bit values.", "anchors": ["rsciio/utils/_readfile.py: read_short, read_ushort, read_int, read_uint, read_long, read_long_long, read_ulong_long, read_byte, read_boolean, read_char"]}
{"id": "C17", "title": "Ragged data survive flattening", "statement": "flatten_data followed by unflatten_data returns the same ragged array: every cell gets back its own array, with its own shape.", "quantifier": "all navigation shapes and all cell contents", "why_tests_cant": "Infinite set of ragged arrays.", "anchors": ["rsciio/_hierarchical.py: flatten_data, unflatten_data"]}
{"id": "C18", "title": "Metadata survive writing to and reading from a hierarchical file", "statement": "Writing a nested dictionary to an hspy/zspy group and reading the group back returns the same dictionary: same keys, same values, lists and tuples with the same elements in the same order and of the same kind.", "quantifier": "all nested dictionaries of strings, numbers, None, lists, tuples and sub-dictionaries", "why_tests_cant": "Arbitrary nesting, list lengths and key texts.", "anchors": ["rsciio/_hierarchical.py: HierarchicalReader._group2dict, HierarchicalWriter.dict2group, parse_structure"]}
{"id": "C19", "title": "Chunk shapes for saving are always valid", "statement": "get_signal_chunks returns True or one chunk length per axis, each at least 1 and at most the axis size, with every signal axis kept whole unless the target size does not allow two signals.", "quantifier": "all shapes, item sizes, sets of signal axes and target sizes", "why_tests_cant": "Iterative floating-point search over unbounded shapes.", "anchors": ["rsciio/_hierarchical.py: get_signal_chunks"]}
{"id": "C20", "title": "Every stored model is returned with the signal it was stored for", "statement": "After writing several signals with models into one file, reading returns each signal with its own models, and models without a signal are returned once on their own; no model is lost or duplicated.", "quantifier": "all files with any numbers of experiments and models", "why_tests_cant": "History of several writes into one file.", "anchors": ["rsciio/_hierarchical.py: HierarchicalReader.read, HierarchicalWriter.write_signal"]}
{"id": "C21", "title": "Blockfile sections do not overlap", "statement": "For every signal the writer lays out the file so that header, note, virtual bright field image and frame records occupy disjoint byte ranges in that order, and the data section starts on the boundary the format requires.", "quantifier": "all navigation and signal sizes and note texts", "why_tests_cant": "All sizes and note lengths.", "anchors": ["rsciio/blockfile/_api.py: get_header_from_signal, file_writer"]}
{"id": "C22", "title": "Blockfile frames survive a write and read", "statement": "Reading back a blockfile returns every frame at the scan position it was written from, with the same pixels; a file cut off after any number of complete frames reads back those frames and zeros for the rest.", "quantifier": "all scan sizes, frame sizes and pixel values, all truncation points at frame boundaries", "why_tests_cant": "Every size and every crash point during writing.", "anchors": ["rsciio/blockfile/_api.py: file_writer, file_reader"]}
{"id": "C23", "title": "Blockfile notes survive a write and read", "statement": "The note stored with a blockfile reads back unchanged up to the space available before the first data offset.", "quantifier": "all note texts", "why_tests_cant": "All texts including non-ASCII ones.", "anchors": ["rsciio/blockfile/_api.py: file_writer, file_reader"]}
{"id": "C24", "title": "Lazy and in-memory blockfile loading agree", "statement": "file_reader returns data of the same shape and content, and axes describing that shape, with lazy=True and lazy=False.", "quantifier": "all scan and frame sizes, including those with a single row or column", "why_tests_cant": "All sizes; degenerate dimensions are squeezed only in one path.", "anchors": ["rsciio/blockfile/_api.py: file_reader"]}
{"id": "C25", "title": "EMSA/MSA headers survive a write and read", "statement": "Every keyword/value pair written to an .msa header reads back with the same value.", "quantifier": "all keyword values", "why_tests_cant": "All value texts (embedded separators, long titles, trailing blanks).", "anchors": ["rsciio/msa/_api.py: file_writer, parse_msa_string"]}
{"id": "C26", "title": "Reading and writing .msa files has no memory", "statement": "Writing a signal to an .msa file does not change the signal passed in and does not change how any later file is read or written.", "quantifier": "all sequences of reads and writes", "why_tests_cant": "Histories of calls in one process.", "anchors": ["rsciio/msa/_api.py: file_writer, parse_msa_string, keywords"]}
{"id": "C27", "title": "Ripple header files survive a write and read", "statement": "Every header key written to a .rpl file reads back with the same value, and inconsistent headers are rejected.", "quantifier": "all header dictionaries", "why_tests_cant": "All value texts.", "anchors": ["rsciio/ripple/_api.py: write_rpl, parse_ripple"]}
{"id": "C28", "title": "Ripple raw data survive a write and read", "statement": "Data written to a .raw file reads back as the same array up to axes of length one, for every record-by layout, offset and sign/width of the integers.", "quantifier": "all array shapes and record orders", "why_tests_cant": "All shapes and layouts.", "anchors": ["rsciio/ripple/_api.py: write_raw, read_raw"]}
{"id": "C29", "title": "TVIPS writer stores every frame once and in order, within the size limit", "statement": "However the frames are split over files, concatenating the frames of the numbered files in order gives back the input frames, and no file is larger than the limit unless it holds a single frame.", "quantifier": "all numbers of frames, frame sizes, header sizes and size limits", "why_tests_cant": "All combinations of sizes.", "anchors": ["rsciio/tvips/_api.py: file_writer, _find_auto_scan_start_stop"]}
{"id": "C30", "title": "TVIPS winding and hysteresis corrections only reorder frames", "statement": "Reading with any winding scan axis and hysteresis returns each scan frame exactly once; the winding correction undoes a boustrophedon scan.", "quantifier": "all scan shapes and hysteresis values", "why_tests_cant": "All sizes and shifts.", "anchors": ["rsciio/tvips/_api.py: file_reader"]}
{"id": "C31", "title": "Re-saving a TVIPS recording returns only the new recording", "statement": "After a recording has been overwritten, reading the file returns exactly the frames of the last write.", "quantifier": "all histories of writes to one name", "why_tests_cant": "Histories with recordings of different length.", "anchors": ["rsciio/tvips/_api.py: file_writer, file_reader"]}
{"id": "C32", "title": "Semper image sizes and labels survive a write and read", "statement": "The image size, integer metadata and title stored in a Semper file read back with the values written.", "quantifier": "all sizes and label values the format can hold", "why_tests_cant": "All sizes and titles.", "anchors": ["rsciio/semper/_api.py: SemperFormat._get_label, _read_label, save_to_unf, load_from_unf, pack_to_intbytes, unpack_from_intbytes"]}
{"id": "C33", "title": "Semper pixel rows survive a write and read", "statement": "The pixel data written row by row as length-framed records read back identically for all supported formats.", "quantifier": "all numbers of layers, rows and columns and all pixel values", "why_tests_cant": "All sizes including odd row lengths.", "anchors": ["rsciio/semper/_api.py: save_to_unf, _read_data"]}
{"id": "C34", "title": "Semper axis units survive a write and read", "statement": "Each axis reads back with its own unit, scale and offset.", "quantifier": "all axis settings", "why_tests_cant": "All combinations of units.", "anchors": ["rsciio/semper/_api.py: SemperFormat._get_label, _read_label, to_dictionary, from_signal"]}
{"id": "C35", "title": "Virtual image names are unique and match their files", "statement": "Names given to the external and virtual images that accompany a Direct Electron .mrc file are pairwise different, there is one name per image, and each name belongs to the image at the same place in the list.", "quantifier": "all directory listings in any order", "why_tests_cant": "Depends on every directory order and every set of repeated names.", "anchors": ["rsciio/mrc/_api.py: find_related_de_files"]}
{"id": "C36", "title": "Direct Electron calibrations are kept", "statement": "Axis scales given in a Direct Electron metadata file appear unchanged in the returned axes; missing ones (-1) become 1.", "quantifier": "all metadata files", "why_tests_cant": "All scale values.", "anchors": ["rsciio/mrc/_api.py: read_de_metadata_file"]}
{"id": "C37", "title": "Merlin navigation shapes never read past the end of the file", "statement": "For every file size, requested navigation shape and frame range, the frames requested for loading lie inside the file and inside the requested range; an interrupted acquisition yields only complete lines.", "quantifier": "all file sizes, shapes and frame ranges", "why_tests_cant": "All combinations of sizes and interruption points.", "anchors": ["rsciio/quantumdetector/_api.py: load_mib_data"]}
{"id": "C38", "title": "Loading .mib data from memory equals loading it from disk", "statement": "load_mib_data returns the same frames for a bytes buffer as for a file with the same content, for every frame range.", "quantifier": "all contents and frame ranges", "why_tests_cant": "All ranges.", "anchors": ["rsciio/quantumdetector/_api.py: load_mib_data"]}
{"id": "C39", "title": "All frame headers are parsed when all are asked for", "statement": "parse_exposures and parse_timestamps return one entry per frame header with max_index=-1, and the first max_index entries otherwise.", "quantifier": "all header lists and limits", "why_tests_cant": "All lengths.", "anchors": ["rsciio/quantumdetector/_api.py: parse_exposures, parse_timestamps"]}
{"id": "C40", "title": "DigitalMicrograph tag trees are decoded completely", "statement": "For every tree of tags stored in a DM3 or DM4 file, the parser returns the tree with every tag name and value, in little and big endian files, and stops exactly at the end of the tree.", "quantifier": "all nested tag trees, both versions, both byte orders", "why_tests_cant": "Unbounded nesting and widths.", "anchors": ["rsciio/digitalmicrograph/_api.py: DigitalMicrographReader.parse_file, parse_header, parse_tags, parse_tag_group, parse_tag_header, read_simple_data, read_string, read_struct, read_array"]}
{"id": "C41", "title": "Skipping DigitalMicrograph arrays does not change the rest of the tree", "statement": "Skipping the values of data arrays during parsing leaves the file position and all other tags exactly as when the arrays are read, and the recorded size and offset delimit the same bytes.", "quantifier": "all tag trees and arrays", "why_tests_cant": "All array types and lengths.", "anchors": ["rsciio/digitalmicrograph/_api.py: DigitalMicrographReader.read_array, read_string, read_struct"]}
{"id": "C42", "title": "Packed complex images are unpacked to Hermitian images", "statement": "Unpacking a packed FFT image fills every pixel, keeps all stored coefficients and produces an image that is Hermitian about its centre.", "quantifier": "all image sizes 2N x 2N and coefficient values", "why_tests_cant": "All sizes.", "anchors": ["rsciio/digitalmicrograph/_api.py: ImageObject.unpack_packed_complex, unpack_new_packed_complex"]}
{"id": "C43", "title": "JEOL frame boundaries are found consistently", "statement": "The start of a frame found by skipping equals the one found by reading it, so loading a subset of frames returns the same frames as loading all of them.", "quantifier": "all raw streams and frame lists", "why_tests_cant": "All event streams.", "anchors": ["rsciio/jeol/_api.py: _skip_frame, _readframe_dense, _readcube"]}
{"id": "C44", "title": "JEOL lazy and in-memory loading agree", "statement": "For every raw stream, lazy loading yields the same counts per frame, position and energy as in-memory loading.", "quantifier": "all raw streams, map sizes and shifts", "why_tests_cant": "All event streams and sizes including non-square maps.", "anchors": ["rsciio/jeol/_api.py: _readframe_dense, _readframe_lazy, _readcube"]}
{"id": "C45", "title": "JEOL counts never overflow silently and incomplete frames leave no trace", "statement": "In-memory loading either returns exact counts or raises ValueError when the dtype is too small; when an incomplete last frame is rejected while summing, the sum is exactly that of the complete frames.", "quantifier": "all raw streams and dtypes", "why_tests_cant": "All event streams and interruption points.", "anchors": ["rsciio/jeol/_api.py: _readframe_dense, _readcube"]}
{"id": "C46", "title": "JEOL parameter trees are decoded completely", "statement": "For every nested parameter tree stored in a JEOL file, the parser returns the tree and stops exactly at its end.", "quantifier": "all trees", "why_tests_cant": "Unbounded nesting.", "anchors": ["rsciio/jeol/_api.py: _parsejeol"]}
{"id": "C47", "title": "Any byte range of a file inside a Bruker container is read exactly", "statement": "read_piece(offset, length) and the chunk iterator return exactly the bytes of the stored file, for every chunk size and every placement of the chunks in the container.", "quantifier": "all chunk sizes, chunk placements, file contents, offsets and lengths", "why_tests_cant": "All alignments of ranges with chunk boundaries.", "anchors": ["rsciio/bruker/_api.py: SFSTreeItem.read_piece, _iter_read_chunks, _fill_pointer_table"]}
{"id": "C48", "title": "Every file of a Bruker container is reachable under its path", "statement": "After opening a container, every stored file can be fetched under the path made of the names of its parent directories, in whatever order the table lists files and directories.", "quantifier": "all file tables", "why_tests_cant": "All orders of table entries.", "anchors": ["rsciio/bruker/_api.py: SFS_reader._flat_items_to_dict, get_file"]}
{"id": "C49", "title": "The compiled and pure-Python Bruker decoders agree", "statement": "For every encoded pixel (16-bit pulses, 12-bit pulses or instruction-packed spectra) both decoders yield the same spectrum.", "quantifier": "all pixel encodings", "why_tests_cant": "All encodings, including widths that no test file contains.", "anchors": ["rsciio/bruker/_api.py: py_parse_hypermap", "rsciio/bruker/unbcf_fast.pyx: unpack12bit, unpack16bit, unpack_instructed, DataStream"]}
{"id": "C50", "title": "Decoding a Bruker map does not depend on how the file is cut into blocks", "statement": "Both decoders return the same spectrum image for every way the stored stream is split into blocks.", "quantifier": "all streams and block sizes", "why_tests_cant": "All alignments of records with block boundaries.", "anchors": ["rsciio/bruker/_api.py: py_parse_hypermap", "rsciio/bruker/unbcf_fast.pyx: DataStream"]}
{"id": "C51", "title": "Deprecated keyword arguments keep working", "statement": "Calling a function with a deprecated keyword that has a replacement passes the value to the replacement; one without replacement is dropped while every other argument is passed on unchanged.", "quantifier": "all keyword dictionaries and decorator settings", "why_tests_cant": "All combinations of settings.", "anchors": ["rsciio/utils/_deprecated.py: deprecated_argument, endianess_keyword_deprecation"]}
{"id": "C52", "title": "Panta Rhei files read back the calibration and axis order written", "statement": "Writing a signal to .prz and reading it back returns the data with the same axis order and the same scale, offset and units per axis.", "quantifier": "all axis lists", "why_tests_cant": "All combinations of axis names and calibrations.", "anchors": ["rsciio/pantarhei/_api.py: export_pr, import_pr, get_metadata_from_axes_info, _guess_from_unit"]}
{"id": "C53", "title": "Lazy and in-memory loading of .prz files agree", "statement": "file_reader returns the same data with lazy=True and lazy=False for every .prz file, including those it has written.", "quantifier": "all .prz archives", "why_tests_cant": "Depends on the compression of the archive members.", "anchors": ["rsciio/pantarhei/_api.py: file_reader, file_writer"]}
{"id": "C54", "title": "MRC axes describe the dimensions they belong to", "statement": "The axes returned for an .mrc file correspond one to one to the dimensions of the returned array, each with the size and the scale of its dimension.", "quantifier": "all sizes, including dimensions of length one, and all navigation shapes", "why_tests_cant": "All patterns of dimensions of length one.", "anchors": ["rsciio/mrc/_api.py: file_reader, read_de_metadata_file"]}
{"id": "C55", "title": "JEOL S(T)EM images have room for every pixel", "statement": "Every S(T)EM image value of a pixel inside the map is stored at its row and column, for maps of all sizes.", "quantifier": "all map sizes and streams", "why_tests_cant": "All sizes, including non-square maps.", "anchors": ["rsciio/jeol/_api.py: _readcube, _readframe_dense, _readframe_lazy"]}
{"id": "C56", "title": "The number type chosen for a Bruker map holds its counts", "statement": "Reading a .bcf map, the integer type chosen from the sum spectrum is large enough for every count of the returned spectrum image, so no count wraps round.", "quantifier": "all maps, downsampling factors and both decoders", "why_tests_cant": "All distributions of the counts over the pixels, including single bright pixels.", "anchors": ["rsciio/bruker/_api.py: estimate_map_depth, parse_hypermap"]}
{"id": "C57", "title": "Panta Rhei axes describe the dimension they belong to", "statement": "Reading a .prz file, the i-th returned axis has the length of the i-th dimension of the returned data, and the content type and calibration of the stored dimension that dimension comes from; navigation axes come first, every value is found at the position its stored position is moved to, and the lists kept in the metadata are in the same order.", "quantifier": "all content types, calibrations and shapes", "why_tests_cant": "All orders of the stored dimensions, lengths of one, and combinations of calibration entries.", "anchors": ["rsciio/pantarhei/_api.py: import_pr"]}
{"id": "C58", "title": "Tofwerk peak reconstruction counts every ion in the window it falls into", "statement": "Reconstructing peak data from an event list, the value of a pixel and a peak is the number of events of that pixel whose mass lies in the integration window of that peak, divided by the number of recordings, whatever the order of the peak table; no event is counted twice.", "quantifier": "all event lists, peak tables, mass axes and clock ratios, with and without numba", "why_tests_cant": "All orders of the peak table, empty pixels, events outside the mass axis or between windows, overlapping windows.", "anchors": ["rsciio/tofwerk/_reconstruction.py: compute_peak_data_from_eventlist"]}
{"id": "C59", "title": "Tofwerk peak reconstruction does not depend on numba", "statement": "The peak data reconstructed with the compiled loop and with NumPy are equal.", "quantifier": "all event lists, peak tables (also with overlapping windows), mass axes and clock ratios", "why_tests_cant": "The two implementations are never compared over all inputs.", "anchors": ["rsciio/tofwerk/_reconstruction.py: compute_peak_data_from_eventlist"]}
{"id": "C60", "title": "Tofwerk peak data match their mass axis", "statement": "In each peak signal of a Tofwerk file the i-th mass of the axis is the mass of the peak whose values are at position i of each pixel, exactly the peaks of the requested kind and mass range are present, and every depth slice is filled; lazy and eager reading agree for every batch size.", "quantifier": "all peak tables (any order, equal masses), mass ranges, batch sizes, lazy or not", "why_tests_cant": "All orders of the table with all ranges and batch sizes, and all choices argsort may make.", "anchors": ["rsciio/tofwerk/_api.py: file_reader"]}
{"id": "C61", "title": "The Tofwerk sum spectrum has an increasing mass axis aligned with its data", "statement": "The mass axis of the sum spectrum is strictly increasing and not negative, has the length of the data, and only unusable samples at its beginning are dropped, with their data.", "quantifier": "all mass axes and data", "why_tests_cant": "All shapes of the mass axis.", "anchors": ["rsciio/tofwerk/_api.py: file_reader"]}
{"id": "C62", "title": "A Tofwerk depth range selects the same slices of all signals", "statement": "A depth range is accepted exactly if it is not empty and within the file; the images returned for it are those of the depth slices of the range.", "quantifier": "all ranges, numbers of slices and images", "why_tests_cant": "All ranges and all mixes of image shapes.", "anchors": ["rsciio/tofwerk/_api.py: file_reader"]}
{"id": "C63", "title": "The signals listed for a Tofwerk file are the signals that can be read", "statement": "available_signals lists exactly the signals that file_reader returns for signal=\"all\"; every request of listed signals is accepted, and a request returns exactly the signals it names.", "quantifier": "all contents of files, requests, lazy or not, with or without a mass range", "why_tests_cant": "All combinations of file contents and arguments.", "anchors": ["rsciio/tofwerk/_api.py: available_signals, file_reader"]}
{"id": "C64", "title": "Each element of a TIA .ser file is read from its own offset", "statement": "The header of a .ser file is read as stored, and the i-th element of the data is the record at the i-th offset of the offset array; elements that are not valid are not read.", "quantifier": "all files: versions, numbers of dimensions, lengths of texts, offsets in any order, element sizes", "why_tests_cant": "All layouts and orders of records cannot be tried; the offsets of test files are regular.", "anchors": ["rsciio/tia/_api.py: load_ser_file, get_header_dtype_list, get_data_dtype_list, get_data_tag_dtype_list"]}
{"id": "C65", "title": "TIA scans have the shape, order and data of the acquisition", "statement": "The result of reading a .ser file has one navigation axis for each dimension of the scan (slow direction first), and the value at each scan position is that of the element acquired there, with the rows of images flipped; positions that were not visited are filled, or cut off if a series was stopped.", "quantifier": "all headers, scan orders, numbers of valid elements, and data", "why_tests_cant": "All combinations of sizes, scan orders and stop positions.", "anchors": ["rsciio/tia/_api.py: ser_reader, load_only_data"]}
{"id": "C66", "title": "TIA axes are calibrated as in the file", "statement": "Size, units and positions of each axis are those of the calibration in the file, with metres converted to nanometres.", "quantifier": "all calibrations", "why_tests_cant": "Offsets and calibration elements are zero in most files.", "anchors": ["rsciio/tia/_api.py: ser_reader"]}
{"id": "C67", "title": "Each .ser file of a TIA .emi file gets its own metadata", "statement": "Reading an .emi file returns all .ser files of the acquisition in order, each with the metadata of its own object in the .emi file.", "quantifier": "all contents of .emi files and directories", "why_tests_cant": "Numbers of files and objects, and their positions, are not bounded.", "anchors": ["rsciio/tia/_api.py: emi_reader, get_xml_info_from_emi, ser_reader"]}
{"id": "C68", "title": "Digital Surf headers and points come back as written", "statement": "Every field of the header of a .sur or .pro object is stored at its position in the documented layout and read back from there; comment, private zone and points (compressed or not) follow and come back as well, and reading stops exactly at the end of the object.", "quantifier": "all values of all fields, comments, private zones and lists of points, compressed or not", "why_tests_cant": "All lengths and values of 59 fields; trailing blanks, cut texts and the limits of number types.", "anchors": ["rsciio/digitalsurf/_api.py: _work_dict, _set_*, _get_*, _pack_data, _unpack_data, _compress_data, _append_work_dict_to_content"]}
{"id": "C69", "title": "Digital Surf data survive normalisation to integers", "statement": "Data written to a .sur file are read back: integers exactly, floating-point numbers within the resolution of 32-bit integers and single-precision scale and offset, and missing values as missing values.", "quantifier": "all data types and values", "why_tests_cant": "Exactness at the limits of the number types and error bounds hold for all data or not at all.", "anchors": ["rsciio/digitalsurf/_api.py: _norm_data, _norm_signed_int, _norm_float, _unpack_data"]}
{"id": "C70", "title": "Each kind of signal comes back from a Digital Surf file", "statement": "For every supported kind of signal (profile, spectrum, spectra, surface, binary image, RGB image, map, and series of profiles, surfaces and RGB images), reading the written file gives the same axes (names, sizes, scales, offsets, units) in the same order, and the value of every index.", "quantifier": "all signals of the ten kinds, all sizes", "why_tests_cant": "All sizes (also one), orders of axes and data.", "anchors": ["rsciio/digitalsurf/_api.py: _split_signal_dict, _split_*, _build_workdict, _build_sur_dict, _build_*"]}
{"id": "C71", "title": "Original metadata of a Digital Surf file list each object's own header", "statement": "The original metadata of a file with several objects and channels list, under the number of the object and of the channel, the header of that object.", "quantifier": "all numbers of objects and channels", "why_tests_cant": "The test files have one object or one channel.", "anchors": ["rsciio/digitalsurf/_api.py: _build_original_metadata"]}
{"id": "C72", "title": "Metadata survive the comment of a Digital Surf file", "statement": "A dictionary written to the comment of a .sur file is parsed back to the same sections, keys, values and units.", "quantifier": "all dictionaries: titles, keys, values, units, orders", "why_tests_cant": "All texts as keys and values, all orders of keys and units.", "anchors": ["rsciio/digitalsurf/_api.py: parse_metadata, _stringify_dict"]}
{"id": "C73", "title": "Values of Quadstar analog scans are complete", "statement": "Each analog trace of a .sac file becomes one signal that holds every value of every cycle at its place; values above the full scale of the cycle, and no others, become NaN.", "quantifier": "all files: tables of traces, numbers of cycles and values, bit patterns, full scales", "why_tests_cant": "The overflow rule depends on every bit pattern and exponent; the test files have a few traces.", "anchors": ["rsciio/quadstar/_api.py: _read_sac_file, _read_trace_headers, _read_trace_info"]}
{"id": "C74", "title": "Times and masses of Quadstar analog scans", "statement": "Each value of a .sac file is at its mass, and each cycle at the time it was measured.", "quantifier": "all files and both settings of use_uniform_signal_axis", "why_tests_cant": "All patterns of times of cycles, also irregular and decreasing ones.", "anchors": ["rsciio/quadstar/_api.py: _read_sac_file"]}
{"id": "C75", "title": "Quadstar bargraph files", "statement": "The intensities of an .sbc file are those stored for each cycle, and each is at the mass that labels it.", "quantifier": "all files: labels, cycles, sizes", "why_tests_cant": "All labels; test files have equidistant ones.", "anchors": ["rsciio/quadstar/_api.py: _read_sbc_file"]}
{"id": "C76", "title": "Dates and texts of Quadstar files", "statement": "Signals carry the date and time of the header in ISO format when it is a date of the calendar, and the titles, units and comments of the trace.", "quantifier": "all headers, all texts", "why_tests_cant": "All dates (also impossible ones) and contents of text fields.", "anchors": ["rsciio/quadstar/_api.py: _build_datetime, _decode_bytes, _read_sac_file"]}
{"id": "C77", "title": "Blocks of Renishaw files", "statement": "Every block of a .wdf file is found with its name, number and contents, and nothing else is.", "quantifier": "all sequences of blocks", "why_tests_cant": "All names, numbers and sizes of blocks; the test files are a few.", "anchors": ["rsciio/renishaw/_api.py: _locate_all_blocks, _search_block_name"]}
{"id": "C78", "title": "Metadata blocks of Renishaw files", "statement": "The entries of a block of metadata become a dictionary in which each name has the value of the entry with the same number, in the type of the entry; entries with entries become dictionaries in the same way.", "quantifier": "all trees of entries, all types and values", "why_tests_cant": "Nesting of any depth and any order of names and values.", "anchors": ["rsciio/renishaw/_api.py: _parse_metadata, _pset_*"]}
{"id": "C79", "title": "Spectra of Renishaw files are at their places", "statement": "The data of a .wdf file have the shape of the measurement (map, line, series, single spectrum), and every spectrum is at its place, with intensities in the order of the signal axis; unfinished measurements keep what was finished.", "quantifier": "all sizes, orders of the signal axis, finished and unfinished measurements", "why_tests_cant": "All sizes and kinds of measurements.", "anchors": ["rsciio/renishaw/_api.py: read_file, _reshape_data, _set_axes, _set_nav_axes, _parse_WDF1, _parse_DATA"]}
{"id": "C80", "title": "Axes of Renishaw files are calibrated", "statement": "The navigation axes of a .wdf file give the position, time or temperature at which a spectrum was recorded, in the unit of the axis; the signal axis has the stored values, or a straight line through them on request.", "quantifier": "all positions, types of quantities and units", "why_tests_cant": "All values of positions; test files have regular ones.", "anchors": ["rsciio/renishaw/_api.py: _parse_XLST, _fit_axis, _parse_ORGN, _parse_WMAP, _set_nav_via_WMAP, _set_nav_via_ORGN"]}
{"id": "C81", "title": "Only commas of numbers in XML are replaced", "statement": "Before parsing, the commas of decimal numbers that are alone between tags are replaced by points, and no other character of the document is changed.", "quantifier": "all texts", "why_tests_cant": "The claim is about all documents; a test knows some numbers only.", "anchors": ["rsciio/utils/xml.py: sanitize_msxml_float"]}
{"id": "C82", "title": "Dictionaries of XML elements hold the whole document", "statement": "The dictionary of an element has the value of each child (or the list of values of children of the same tag, in their order), each attribute and the text, and nothing else; any document can be converted.", "quantifier": "all trees of elements, all settings (prefix of attributes, key of texts, tags left out, texts between children), any interpretation of literals", "why_tests_cant": "Trees of any depth and any combination of attributes, texts and repeated tags.", "anchors": ["rsciio/utils/xml.py: XmlToDict.dictionarize, XmlToDict.eval"]}
{"id": "C83", "title": "Boxes of XML elements hold all texts and attributes", "statement": "The box of an element has each attribute and each text of the document at the path of its tags, and nothing else.", "quantifier": "all trees of elements", "why_tests_cant": "Trees of any depth; the test files have a few forms only.", "anchors": ["rsciio/utils/xml.py: xml2dtb, convert_xml_to_dict"]}
{"id": "C84", "title": "Comments of Hamamatsu files are read whole", "statement": "The comment of an .img file gives all its sections, and in each section all keys with their values, whatever characters are in them.", "quantifier": "all comments: any number of sections and entries, any values", "why_tests_cant": "The claim is about all texts; the test files have a fixed set of keys.", "anchors": ["rsciio/hamamatsu/_api.py: _split_sections_from_comment, _get_range_for_val, _extract_entries_from_section, _process_comment"]}
{"id": "C85", "title": "Pixels of Hamamatsu images keep their place, wavelength and time", "statement": "Each pixel of an .img file is found in the image at its row and column, and the axes give there the wavelength and the time of the calibration tables, also when the wavelengths are stored backwards and for uniform axes (best straight line).", "quantifier": "all sizes, types of pixels, pixel values, calibration tables and comments", "why_tests_cant": "All sizes and all tables; test files are a few images with increasing or decreasing wavelengths.", "anchors": ["rsciio/hamamatsu/_api.py: IMGReader, parse_file, _get_scaling_entry, _extract_calibration_data, _set_axis, _get_axes, _reshape_data"]}
{"id": "C86", "title": "Metadata of Hamamatsu files say what the comment says", "statement": "Date, time, title, integration time, binning, corrections, camera and spectrometer of the metadata are those of the comment; entries without a value are left out.", "quantifier": "all comments, file names and interpretations of numbers", "why_tests_cant": "All combinations of missing and present entries.", "anchors": ["rsciio/hamamatsu/_api.py: _str2numeric, _str2bool, _remove_none_from_dict, _map_general_md, _map_signal_md, _map_detector_md, _map_spectrometer_md, map_metadata"]}
{"id": "C87", "title": "Frames of EMPAD files keep their place", "statement": "Each pixel of each frame of an EMPAD raw file is found at its place in the scan or stack, the two rows after each frame are never mixed into the images, the axes fit the data, and files that are too short are not loaded.", "quantifier": "all sizes of scans and stacks, all pixel values, all footers and trailing bytes, sizes from entries or from the file name", "why_tests_cant": "All scan sizes and all values; the test files have a few square scans.", "anchors": ["rsciio/empad/_api.py: _read_raw, _parse_xml, file_reader"]}
{"id": "C88", "title": "Axes of EMPAD files are calibrated", "statement": "The steps of a scan times the number of pixels give the field of view of the file, whatever unit is chosen; the diffraction patterns have the calibration given by the user or by the file, with zero in the middle of the detector; names, order, and date are right.", "quantifier": "all XML entries, scan sizes, fields of view, calibrations and choices of units", "why_tests_cant": "All combinations of entries and sizes.", "anchors": ["rsciio/empad/_api.py: _parse_xml, _convert_scale_units, file_reader"]}
{"id": "C89", "title": "Frames of TopSpin scans keep their position", "statement": "Each pixel of each frame of a scan is found at the row and the column of the frame; steps and starts of the axes are those of the positions stored with the frames; images are calibrated in x and y.", "quantifier": "all sizes of scans, positions, steps, and images", "why_tests_cant": "All scan sizes, also those that need the second way of reading the positions.", "anchors": ["rsciio/topspin/_api.py: _get_4D_axes, _get_2D_axes, file_reader"]}
{"id": "C90", "title": "Metadata and datasets of TopSpin files", "statement": "Items of the metadata become entries with the value of their type; title, date, time and description are those of the file; exactly the datasets of the file are read, each with the metadata of its experiment.", "quantifier": "all trees of metadata, names of groups and paths", "why_tests_cant": "All metadata trees and all file layouts.", "anchors": ["rsciio/topspin/_api.py: _parse_app5_xml, _parse_hspy_meta, file_reader"]}
{"id": "C91", "title": "Pickles in prz files cannot call anything but five NumPy helpers", "statement": "While a pickled array is read, no name outside the white list is looked up, nothing outside it is called or asked for a method, and the result holds no other callable; a pickle that asks for another name ends with InvalidPickleError before any later instruction has an effect; the listed names work; arrays without objects are never unpickled.", "quantifier": "all sequences of pickle instructions, and all behaviours of the listed callables", "why_tests_cant": "Attackers choose the instructions; tests try a few pickles.", "anchors": ["rsciio/pantarhei/_restricted_unpickling.py: RestrictedUnpickler, find_class, read_pickled_array"]}
{"id": "C92", "title": "DENS heater logs: temperatures at the times they were measured", "statement": "A log with at least two lines is read with one temperature per line, in order; the time axis is the best straight line through the times of the measurements, however often midnight passed; date, time and constants are those of the header; other files are rejected.", "quantifier": "all numbers of lines, temperatures, times and days, constants and blank lines at the beginning", "why_tests_cant": "All sequences of times, with any number of days between them.", "anchors": ["rsciio/dens/_api.py: _cnv_time, file_reader"]}
{"id": "C93", "title": "Columns of Protochips logs keep their values and their names", "statement": "One signal per column after time and notes, with all its cells in order, its name and the units of its kind of quantity; date, time, user, calibration file and notes are those of the file; the scale is the mean time step in seconds; other files are rejected.", "quantifier": "all numbers and names of columns and rows, all header lines and all cells", "why_tests_cant": "All headers and all tables; test files are a few logs.", "anchors": ["rsciio/protochips/_api.py: ProtochipsCSV, _parse_header, _read_all_metadata_header, _read_data, _get_axes, get_dictionary"]}
{"id": "C94", "title": "Columns of Impulse logs keep their values and their names", "statement": "One signal per quantity, with all its cells in order, its name and its units; positions of the valve can be told from their number; date, time, entries and notes are those of the metadata file, which is the one with the same beginning of its name; the scale is the mean time step; files with other names are rejected.", "quantifier": "all names of files and columns, rows, cells, positions of the valve, and metadata files", "why_tests_cant": "All tables and all metadata; test files are a few logs.", "anchors": ["rsciio/impulse/_api.py: ImpulseCSV, _parse_header, _read_data, _read_metadatafile, _get_axes, _parse_quantity_units, get_dictionary"]}
{"id": "C95", "title": "Scans of TVIPS files are rebuilt from the rotator indices", "statement": "With scan_shape='auto', scan position p gets a frame recorded at rotator index p+1 or, when there is none, at the last index before it, in the order of recording; complete scans are returned frame by frame in raster order; frames before the scan are skipped; numbers of positions that are no squares are rejected. Axes of scans and stacks carry the sizes, the pixel size, the offsets and the times of the headers.", "quantifier": "all sequences of rotator indices that never decrease, all scan sizes, all numbers of frames before the scan, all headers and times", "why_tests_cant": "All sequences of indices, with any dropped or repeated frames; tests have one scan.", "anchors": ["rsciio/tvips/_api.py: _find_auto_scan_start_stop, _guess_scan_index_grid, file_reader"]}
{"id": "C96", "title": "EDAX spectra are read from where their header says", "statement": "The channels of an .spc file are the unsigned words from dataStart on, lazily or not, in the given byte order; energy axis, angles, resolution, live time, beam energy, tilt and elements are those stored at the documented positions; reading the complete header or its important parts makes no difference.", "quantifier": "all files, byte orders, header versions, lists of elements, numbers and positions of channels", "why_tests_cant": "All files of all versions; tests load a few.", "anchors": ["rsciio/edax/_api.py: get_spc_dtype_list, __get_spc_header, _add_spc_metadata, spc_reader", "rsciio/utils/_elements.py"]}
{"id": "C97", "title": "EDAX spectrum images keep every count at its pixel and channel", "statement": "data[y, x, c] of an .spd file is the count stored at dataOffset + ((y*nPoints + x)*nChannels + c)*countBytes; axes have the sizes of the header, the pixel sizes of the .ipr file named after the bitmap and the energies of the .spc file of the same name; maps that are cut short are rejected.", "quantifier": "all maps, sizes, widths of counts, offsets, names of files and directories, calibration files", "why_tests_cant": "All sizes and byte orders; the two test maps are little endian.", "anchors": ["rsciio/edax/_api.py: get_spd_dtype_list, get_ipr_dtype_list, si_reader, file_reader"]}
{"id": "C98", "title": "EDAX line scans keep every spectrum and its distance", "statement": "An .lsd file gives its first nSpectra spectra in order; the x axis is that of the table of distances in the .csv file of the same name: offset the first distance, scale the step; other extensions are rejected.", "quantifier": "all line scans, tables of distances, names of files and directories", "why_tests_cant": "All tables and sizes; there is one test file.", "anchors": ["rsciio/edax/_api.py: si_reader, file_reader"]}
{"id": "C99", "title": "Arrays saved as .npy files are loaded as they were", "statement": "An array that is saved and loaded again, lazily with any chunks or at once, has its values at their places without the axes of length one; there is one axis for each remaining dimension, in order, and it is a navigation axis exactly when its number is in navigation_axes.", "quantifier": "all arrays, shapes, memory layouts, chunks and lists of navigation axes", "why_tests_cant": "All shapes, layouts and chunks; tests save arrays in C order.", "anchors": ["rsciio/numpy/_api.py: file_reader, file_writer, inspect_npy_file", "rsciio/utils/_distributed.py: memmap_distributed"]}
{"id": "C100", "title": "EELSLab files keep their data and their axes", "statement": "A netCDF file of EELSLab gives the transposed data cube; each axis has the size, name, scale, offset and units of its dimension; images have two and spectra one signal axis; attributes of the acquisition and treatments are kept; other files are rejected.", "quantifier": "all files of one to three dimensions, all sets of attributes, both kinds of data", "why_tests_cant": "All dimensions and sets of attributes; tests read one spectrum image.", "anchors": ["rsciio/netcdf/_api.py: file_reader, nc_hyperspy_reader_0dot1"]}
{"id": "C101", "title": "Images keep their pixels, colours and calibration", "statement": "An image is loaded as greyscale only when its colour channels are equal everywhere, otherwise with all its channels; the axes have the sizes of the image and the fields of view, origins and units of the EXIF tags.", "quantifier": "all decoded images, numbers of channels, sizes and EXIF tags", "why_tests_cant": "All pixel values; the tests have images that are grey or have three different channels.", "anchors": ["rsciio/image/_api.py: file_reader, _read_data", "rsciio/utils/_image.py: _parse_axes_from_metadata"]}
{"id": "C102", "title": "Arina data keep every count at its scan position and pixel", "statement": "data[i, j, r, c] is the corrected count at row r and column c of the frame number i*y+j of all datasets, or the mean over a block with binning; the scan has the shape that was asked for or is square, and other numbers of frames are rejected.", "quantifier": "all datasets, counts, scan shapes, binning factors, flat fields and pixel sizes", "why_tests_cant": "All sizes and counts; tests use small square detectors with few counts.", "anchors": ["rsciio/arina/_api.py: file_reader, _process_dataset, bin2D"]}
{"id": "C103", "title": "MRCZ files give back data, axes and metadata", "statement": "A signal that is written and read again has its data, the sizes, scales, units and offsets of its axes and the entries of its metadata; other memory maps and headers are rejected.", "quantifier": "all arrays, scales and metadata", "why_tests_cant": "All signals with any scales and metadata; tests use one shape.", "anchors": ["rsciio/mrcz/_api.py: file_reader, file_writer"]}
{"id": "C104", "title": "LabSpec files keep every intensity at its position and wavelength", "statement": "In spectra, line scans and maps every intensity of the file is found at its row, column and wavelength; wavelengths that descend are reversed together with the data; the axes have the order of the data, the sizes, positions, names and units of the file; a uniform signal axis is the straight line that fits best.", "quantifier": "all files with any numbers of positions and wavelengths in any order, and all units", "why_tests_cant": "All sizes and orders; tests compare a few files.", "anchors": ["rsciio/jobinyvon/_api.py: get_axes, _set_signal_axis, _set_nav_axis, _sort_nav_axes, get_data"]}
{"id": "C105", "title": "Settings in LabSpec files arrive in the metadata, each at its place", "statement": "Every setting of the file is in the metadata at its place and nothing else is; settings that are numbers are numbers, with the number behind a label where there is one; the integration time is the number of accumulations times the exposure; the time of acquisition is split into date and time.", "quantifier": "all sets of settings with any texts", "why_tests_cant": "All sets of settings; the test files have the same settings.", "anchors": ["rsciio/jobinyvon/_api.py: get_original_metadata, _get_metadata_values, _clean_up_metadata, map_metadata"]}
{"id": "C106", "title": "TriVista files keep every intensity at its position, time and wavelength", "statement": "In spectra, series in time, line scans and maps every intensity of the file is found at its frame and wavelength, with frames of maps in rows; the axes have the order of the data and the sizes, positions, steps and units of the file; the windows of a glued spectrum, if asked for, are read one by one with their own wavelengths.", "quantifier": "all documents with any numbers of frames, positions, wavelengths and windows", "why_tests_cant": "All sizes and arrangements; tests compare a few files.", "anchors": ["rsciio/trivista/_api.py: _get_signal_axis, _parse_data, set_axes, reshape_data, _load_glued_data_stack"]}
{"id": "C107", "title": "Settings in TriVista files arrive in the metadata, each at its place", "statement": "Every item of the groups in the file is found under the names of its groups; of the hardware in the file that which was used is chosen; detector, laser, objective and spectrometers have exactly the settings the file gives, in seconds and millimetres; title, date and time are those of the file.", "quantifier": "all trees of groups with any items, all lists of hardware", "why_tests_cant": "All trees and lists; the test files come from one system.", "anchors": ["rsciio/trivista/_api.py: _process_info_serialized, parse_file_structure, _filter_laser_metadata, _filter_spectrometers_metadata, map_metadata"]}
{"id": "C108", "title": "ELID files give every picture and analysis with its data, axes and title", "statement": "For each picture of the file, in order, the signals are the picture and then its analyses, with the counts of the file at their spectrum, row and column; the axis of the energy has the offset and dispersion of the file in keV, pixels of pictures and maps have their size; titles name the picture, the kind and the number of the analysis; other files are rejected.", "quantifier": "all projects of the versions 0 to 4 with any numbers of pictures and analyses of any size, all positions of times and counts of any length", "why_tests_cant": "All layouts of a binary format with lengths, flags and numbers of varying length; tests read three files.", "anchors": ["rsciio/phenom/_api.py: ElidReader"]}
{"id": "C109", "title": "Metadata in ELID files arrives in the signals it belongs to", "statement": "Every entry that the file stores about a spectrum, a line scan or a region is found in the metadata of its signal, with names of elements, families, detectors and corrections; the metadata of the picture around it, its attributes and its date are kept; for old versions the working distance and peaking times are those of the picture.", "quantifier": "all metadata trees, all values of all fields, all versions", "why_tests_cant": "All trees and values; the test files come from few instruments.", "anchors": ["rsciio/phenom/_api.py: ElidReader._read_eds_metadata, _read_CommonAnalysis, _read_tiff"]}
{"id": "C110", "title": "Delmic files give the acquisitions that were asked for, each value at its place", "statement": "Of the complete acquisitions of a file (five dimensions with different labels, title, time and description), reading returns exactly those of the types asked for, in the documented order of types and in the order of the file; each value is found at the index that its named dimensions say, known dimensions come as Z, Y, X, Time, Angle, Wavelength and dimensions of length one are gone; positions in the units of the axes are the positions of the file in metres and seconds, with the first row on top; angle-resolved images of one polarization are placed on the pixels of the last concurrent SEM image line by line in the order of time, or returned one by one if they do not fill it; incomplete acquisitions and other objects are left out, and files with nothing to return, other words and lazy reading are rejected.", "quantifier": "all files with any number of objects, all dimensions, sizes, values, labels, types and polarizations, all words", "why_tests_cant": "The order of dimensions, types, times and groups is combinatorial; the tests read about ten files of one program.", "anchors": ["rsciio/delmic/_api.py: file_reader, read_acquisition, make_axes, guess_signal_type, merge_ar_data, squeeze_dimensions, reorder_dimensions"]}
{"id": "C111", "title": "Metadata of Delmic files is that of the acquisition", "statement": "Each signal has the title, the signal type of its type, the date of its time and the polarization of its acquisition, and its original metadata has exactly the valid entries of the file, the time, the group and the origin; a scan of angle-resolved images has the metadata of its first image.", "quantifier": "all files as in C110, all entries with all states and values", "why_tests_cant": "All combinations of entries and states; the tests look at some values of a few files.", "anchors": ["rsciio/delmic/_api.py: make_metadata, make_original_metadata, read_image_title, _h5svi_get_state"]}
{"id": "C112", "title": "EMD files of the Berkeley variant keep what was written", "statement": "Writing a signal and reading the file gives one signal with the same array, axes with the same names, units, sizes, offsets and scales, the same title, and the attributes of the groups microscope, sample, user and comments of the original metadata, with and without stacking; the dataset has its axes in reverse order, the version is 0.2, the attributes of the signal are those of metadata.Signal that can be stored, and the chunks are those asked for, those of the dask array, or fit into the array.", "quantifier": "all signals with any shape, values, axes, titles and metadata, all chunks and arguments of the reader", "why_tests_cant": "Reversal of data, dimensions and chunks hides for square, short or symmetric examples; the tests write a few arrays.", "anchors": ["rsciio/emd/_emd_ncem.py: EMD_NCEM.write_file, _write_signal_to_group, read_file"]}
{"id": "C113", "title": "EMD files of the Berkeley variant give each dataset with its calibration", "statement": "For each dataset asked for, or each dataset of a supported name in a group with emd_group_type, in the order of the file, one signal is returned: each value at its place (axes reversed unless the dimensions count from zero or the dataset is datacube), each axis with name, units, offset and scale of its dimension, title, file name, signal type, and original metadata; datasets of a common group are stacked along a new first axis with the depth of prismatic simulations; missing paths and other files are rejected.", "quantifier": "all files with any objects, shapes, values, dimensions, attributes and paths, all arguments", "why_tests_cant": "The choice of datasets and stacks depends on all names in the file, and the pairing of axes with dimensions on all shapes; the tests read about ten files.", "anchors": ["rsciio/emd/_emd_ncem.py: EMD_NCEM.read_file, find_dataset_paths, _read_data_from_groups, _parse_axis, _parse_attribute, _parse_original_metadata, _parse_metadata", "rsciio/emd/_api.py: file_reader, is_EMD_Velox"]}
{"id": "C114", "title": "Velox files give every dataset that is asked for, each value at its place", "statement": "The signals are, in this order, the single spectra, the pictures, the EELS spectrum images and the spectrum images, each if nothing or this part is asked for. A picture has the pixels of its dataset with frames first (one frame unless a stack is asked for or the file has pictures only) and the size, position and unit of its pixels converted to one unit; a spectrum has its counts and the calibration of its detector; a spectrum image has at each frame, row, column and channel the number of events the streams have there, added over frames, detectors and rebinned channels as asked, in the type asked for; other words, more frames than there are, and rebinning that does not divide the channels are rejected.", "quantifier": "all files with any datasets, shapes, values, events and metadata, all arguments of the reader", "why_tests_cant": "All combinations of datasets, frames, detectors and arguments, with sizes that are usually square in tests.", "anchors": ["rsciio/emd/_emd_velox.py: FeiEMDReader.read_file, _read_data, _read_single_spectrum, _read_images, _read_spectrum_stream, _read_eels_spectrum_images, FeiSpectrumStream"]}
{"id": "C115", "title": "Velox files give each signal its name, date and metadata", "statement": "A picture has the label of the last display that shows it, otherwise the name given by the first operation that mentions it, or of its detector; spectra and spectrum images are EDS; every signal has the name of the file, the date and time of its acquisition, the metadata of the whole file and of its dataset, a picture those of its detector, and a spectrum image the parameters of its import.", "quantifier": "all files as in C114, all trees of operations, displays, detectors and metadata, all versions", "why_tests_cant": "The name depends on all operations and displays of the file; the tests compare the titles of a few files.", "anchors": ["rsciio/emd/_emd_velox.py: FeiEMDReader._get_detector_name, _parse_image_display, _get_metadata_dict, _convert_datetime, _get_mapping, _get_detector_metadata_dict, _parse_metadata_group"]}
{"id": "C116", "title": "USID files are read completely and their axes show the values of the dimensions", "statement": "Reading a USID file gives one signal for every main dataset, or one for every part of a compound type, in order, or those of the dataset asked for. The numbers are those of the N-dimensional form without the dimensions of one value; the axes follow the order of that form, with name, units and length, and for equally spaced values offset + i * scale is the i-th value. Other spacings are read as 0, 1, 2, ... or rejected, as asked. The quantity and units come from the descriptor, parameters of the experiment from the groups above.", "quantifier": "all lists of main datasets, all dimensions in all orders of the tables, all values, all descriptors, both values of ignore_non_uniform_dims, all paths", "why_tests_cant": "Order of the tables, number of dimensions and spacing vary together; the tests use a few arrays written by the library itself.", "anchors": ["rsciio/usid/_api.py: file_reader, _usidataset_to_signal_dict, _get_dim_dict, _assemble_dim_list, _split_descriptor"]}
{"id": "C117", "title": "Writing a signal to a USID file and reading it gives the signal back", "statement": "A signal written to a new USID file or added to an existing one is read again after all signals that were there, with the same numbers, shape, and axes with names, units, scales, offsets and the kind of axis. The metadata and the original metadata are stored as attributes, each value under its keys joined by dashes, and come back.", "quantifier": "all numbers of navigation and signal axes, all lengths, all names, scales and offsets, all nested metadata, all existing files", "why_tests_cant": "The dimensions are renumbered and reversed twice on the way, and keys of nested dictionaries are merged; the tests compare a few shapes.", "anchors": ["rsciio/usid/_api.py: file_writer, _axes_list_to_dimensions, _flatten_dict, file_reader"]}
{"id": "C118", "title": "TIFF files are read completely and their axes are calibrated as the program that wrote them says", "statement": "Reading a TIFF file gives one signal for every series, or for every page if asked for, with the numbers or colours of the file and axes with the lengths of the data and the names of the letters of tifffile, all but the last two for navigation. Scale, offset and units are those given by FEI, Zeiss, TVIPS, Olympus, JEOL, Digital Micrograph or ImageJ, or by the resolution if that is asked for, the horizontal ones for the width and the vertical ones for the height. A resolution that cannot be read gives axes without calibration; letters without a meaning and unknown kinds of axes are rejected.", "quantifier": "all files with all tags and flags, all letters and shapes, all values of the arguments", "why_tests_cant": "The programs, their tags and the order of the axes multiply; the tests have one or two files for every program, most with square pixels, where an exchange of the axes does not show.", "anchors": ["rsciio/tiff/_api.py: file_reader, _read_tiff, _parse_scale_unit, _axes_force_read, _axes_fei, _axes_zeiss, _axes_tvips, _axes_olympus_sis, _axes_jeol_sightx, _add_axes_imagej, _add_axes_digital_micrograph, _order_axes_by_name, _build_axes_dictionaries"]}
{"id": "C119", "title": "Writing an image or a stack of images to a TIFF file and reading it gives it back", "statement": "An image or a stack written with its scale is read with the same numbers or colours, axes with the same length, scale, offset and units, the quantity, the linear model of the noise, and the date.", "quantifier": "all images and stacks with all scales, offsets, units, quantities, models and dates", "why_tests_cant": "Scale and units are written three times, as resolution, as description of ImageJ and as tags of Digital Micrograph, and which one is read depends on the units; the tests use a few scales and units.", "anchors": ["rsciio/tiff/_api.py: file_writer, _get_tags_dict, _get_imagej_kwargs, _get_dm_kwargs_extratag, _imagej_description, _read_tiff, _add_axes_imagej, _add_axes_digital_micrograph"]}
{"id": "C120", "title": "The metadata of TIFF files are those of the tags", "statement": "All tags are in the original metadata, apart from those that are replaced by parsed ones. Date and time come from the tag in one of two formats or from the report of JEOL, quantity and noise from the tags of Digital Micrograph, the title from the report of JEOL; the mapping of the metadata is that of the program.", "quantifier": "all files with all tags, all texts of dates, all reports", "why_tests_cant": "Date, description and program combine; the tests compare the metadata of one file per program.", "anchors": ["rsciio/tiff/_api.py: _read_tiff, _axes_jeol_sightx, get_metadata_mapping, get_jeol_sightx_mapping, get_tvips_mapping, _is_digital_micrograph, _intensity_axis_digital_micrograph"]}
{"id": "C121", "title": "Streak images of Hamamatsu are read with their scalings and their description", "statement": "The rows of the description of a streak image are found in the original metadata under their names with all entries, together with the values of both scalings. The width is the line through the horizontal values, the height the line or the polynomial through the vertical values or these values, as asked for, with the units of the description; scalings that are not in the file are pixels. The kind of signal is a transient spectrum if LumiSpy is installed.", "quantifier": "all descriptions with all rows and entries, with both ends of lines, all addresses, all values, all kinds of axes", "why_tests_cant": "The description is parsed as comma-separated values with quotes inside of fields; the tests have three files.", "anchors": ["rsciio/tiff/_api.py: _is_streak_hamamatsu, _get_hamamatsu_streak_description, _axes_hamamatsu_streak, _read_tiff"]}
{"id": "C122", "title": "Reading a NeXus file gives the signals of the NXdata groups and the datasets, those that are asked for", "statement": "Every NXdata group gives one signal and every other dataset with at least two numbers one more, after those of the groups; with nxdata_only the groups only, with hardlinks_only nothing behind links, with a key or a path only those whose path has the key in it or is the path, and with use_default the default of the file. Titles are the names of the groups or the paths of the datasets. The list of datasets of a file has the same paths.", "quantifier": "all files with all groups, datasets, attributes and links, all keys and paths, all values of the flags", "why_tests_cant": "Links, keys, defaults and classes of groups combine in trees of any depth; the tests have a handful of files, most written by the library itself.", "anchors": ["rsciio/nexus/_api.py: file_reader, _find_data, _getlink, _check_search_keys, _text_split, _extract_hdf_dataset, _nexus_dataset_to_signal", "rsciio/utils/hdf5.py: list_datasets_in_file"]}
{"id": "C123", "title": "The axes of NXdata have the values that the file gives for the dimension that it names", "statement": "An axis of a NXdata group has the name, the units and the values of the dataset that the attribute axes names, for the dimension given by the attribute with its indices or by its place in the list; axes without name have the size of a dimension that no other axis has. The interpretation says whether the last axis or the last two are those of the signal. Without names there is an axis for every dimension.", "quantifier": "all arrays of all dimensions, all lists of names and indices, all values of the axes, all interpretations", "why_tests_cant": "Names, dots, indices and interpretation combine; the tests use a few files with axes in the order of the dimensions and positive steps.", "anchors": ["rsciio/nexus/_api.py: _get_nav_list, _is_linear_axis, _nexus_dataset_to_signal, _parse_from_file"]}
{"id": "C124", "title": "Signals that are written to a NeXus file come back with their data, axes and titles", "statement": "Writing a list of signals and reading the NXdata of the file gives as many signals in the same order, each with its data, its title and its axes with names, units, scales, offsets and the kind of axis.", "quantifier": "all lists of signals of all dimensions, all axes with all names, units, scales, offsets and kinds, all titles", "why_tests_cant": "Number of signals, titles and kinds of axes vary together; the tests write one to three signals with a few calibrations.", "anchors": ["rsciio/nexus/_api.py: file_writer, _write_signal, _nexus_dataset_to_signal, _get_nav_list, file_reader"]}
{"id": "C125", "title": "Metadata that are written to a NeXus file come back", "statement": "The metadata, the original metadata without the entries that are to be skipped, and the learning results of each signal come back, each value under its keys; without learning results there are none.", "quantifier": "all nested dictionaries of numbers, texts, lists and arrays, all lists of signals, all lists of keys to skip", "why_tests_cant": "Values are converted twice and dictionaries become groups, datasets or attributes depending on their keys; the tests compare a few dictionaries.", "anchors": ["rsciio/nexus/_api.py: file_writer, _write_nexus_groups, _write_nexus_attr, _parse_to_file, _load_metadata, _fix_exclusion_keys, file_reader"]}
{"id": "C126", "title": "Spectra of JEOL .eds files are read with their axis, their counts and the tables of the file", "statement": "The counts, the energy axis and the metadata are those of the header; the excluded elements, the lines, the selected elements, the table of quantification and the parameters of the measurement are those that the file stores, whatever their numbers.", "quantifier": "all files: all numbers of channels, of excluded and selected elements, of lines and of rows, all names and values", "why_tests_cant": "Each table has a length of its own that moves all that follows; the tests have one file.", "anchors": ["rsciio/jeol/_api.py: _read_eds"]}
{"id": "C127", "title": "Spectrum images of JEOL .pts files count every event of the frames that are asked for, at its shifted and downsampled place", "statement": "For all options (frames, shifts, downsampling, rebinning, cut-off, sum of frames, incomplete frames) the value of the array at a pixel and a channel is the number of events of these frames whose position and energy, divided by the factors and moved by the shift of the frame, is that pixel and channel; the axes have the sizes of the array and its calibration.", "quantifier": "all streams of any number of frames, all headers, all combinations of the options", "why_tests_cant": "Nine options combine with streams of any length; the tests read two small files with some combinations.", "anchors": ["rsciio/jeol/_api.py: _read_pts, _readcube, _readframe_dense, _readframe_dummy"]}
{"id": "C128", "title": "JEOL archives give the signals of all their files, and images their pixels", "statement": "Reading an .asw archive returns the signals of the files that its tree names, in the order of samples, views and files, each with the tree and the entry of its file, found beside the archive with the path written with backslashes; files of other extensions are skipped. An .img or .map file gives an image with its pixels row by row, the field of view of the header in both directions, and the metadata of the header.", "quantifier": "all archives with any tree of samples, views and files, all paths, all images of any size", "why_tests_cant": "The archive has three levels of groups, each possibly missing; the tests have one archive with one sample.", "anchors": ["rsciio/jeol/_api.py: file_reader, _read_asw, _read_img, _parsejeol"]}
{"id": "C129", "title": "An hspy or zspy file returns the signal that was saved", "statement": "Saving a signal to an .hspy or .zspy file and reading that file returns exactly one signal, with the same data, axes in the same order, metadata, original metadata, learning results, attributes, package, version and models. This holds whatever was in the file before, for every title (the group of the signal has a valid name even when the title is empty or contains slashes) and for any order in which the library lists the names in a group.", "quantifier": "all signals with storable dictionaries, any number of axes and models, any title other than __unnamed__; all earlier contents of the file", "why_tests_cant": "The writer spreads a signal over groups, attributes and datasets with names made from titles and numbers; tests round-trip a few signals and do not combine models, empty titles, slashes and nested metadata.", "anchors": ["rsciio/_hierarchical.py: HierarchicalReader.read, group2signaldict, HierarchicalWriter.write_signal, overwrite_dataset", "rsciio/hspy/_api.py: file_writer, file_reader", "rsciio/zspy/_api.py: file_writer, file_reader"]}
{"id": "C130", "title": "Updating an hspy file without writing the data keeps the data", "statement": "Saving with write_dataset=False into a file that already holds the signal keeps its data and all other experiments of the file and replaces the axes, the package and its version; the file is never emptied, and any mode other than appending is refused. A lazy signal is never saved over its own file when that is open for reading only, and otherwise the file is not emptied before its data are read. The user can give the mode.", "quantifier": "all files with the signal, all new axes and metadata, all combinations of lazy, path, handle and mode", "why_tests_cant": "The danger is loss of data for particular combinations of options and states of the file; tests use two or three.", "anchors": ["rsciio/hspy/_api.py: file_writer", "rsciio/_hierarchical.py: write_signal, overwrite_dataset"]}
{"id": "C131", "title": "Metadata of old hspy files are found under their new names", "statement": "The version of a file is the one it says, or 1.0, 2.0 according to its groups, otherwise it is refused with IOError; versions are compared as numbers. Metadata of files of version 3.0 or later are returned as they are. In older files every renamed item is found at its new place (title, date, time, file name, kind of signal, private section, variance, X-ray lines, microscopes and their detectors, tilt, exposure time), no longer at the old one, and all items that are not concerned keep their values.", "quantifier": "all metadata whose sections are dictionaries, all versions a.b", "why_tests_cant": "There are three generations of renamings with some thirty keys, applied one after the other to whatever is in the file; tests read one file of each old version.", "anchors": ["rsciio/_hierarchical.py: get_format_version, group2signaldict"]}
{"id": "C132", "title": "Axes of Digital Micrograph images have the calibration of their dimension", "statement": "Every dimension of an image becomes one axis, in reverse order, with the size, scale, units of that dimension and the offset minus origin times scale; a dimension without calibration has scale 1, offset 0 and no units. The first dimension is a signal axis and the second too, except in a line of spectra. The energy-loss axis, the energy axis of X-ray spectra and the wavelength axis get their names, the others are x, y and z. Images marked as spectrum images are turned to spectra.", "quantifier": "all images of any number of dimensions and calibrations, all kinds of signals and formats", "why_tests_cant": "Dimensions are stored X first and calibrations may be fewer or more than dimensions; tests read files of one to four dimensions with complete calibrations.", "anchors": ["rsciio/digitalmicrograph/_api.py: ImageObject.shape, offsets, scales, units, names, navigate, to_spectrum, get_axes_dict"]}
{"id": "C133", "title": "Pixels of Digital Micrograph images are those of the file", "statement": "For every data type the array read, eagerly or lazily, has at each pixel the value that the file holds at that pixel, X varying fastest; colours come as red, green, blue and alpha; with order F the first axis varies fastest; a file that is too short, a wrong number of values or an unknown data type is an error. A file returns all its images except the thumbnails, in order, each with its own axes, title, kind and tags.", "quantifier": "all images of any shape, data type, byte order and position in the file, all lists of images and thumbnails", "why_tests_cant": "There are seventeen data types, two byte orders and two ways of reading; tests have one small little-endian file for each type.", "anchors": ["rsciio/digitalmicrograph/_api.py: ImageObject.dtype, size, get_data, get_metadata, get_image_dictionaries, file_reader"]}
{"id": "C134", "title": "Metadata derived from Digital Micrograph tags", "statement": "The mode is STEM, SEM or TEM according to the illumination mode; the quantity is X-rays, electrons or intensity with its units in brackets; the exposure is the integration time or else the exposure of a frame times the number of frames; the name of the microscope is the first filled entry of three.", "quantifier": "all texts and numbers of these tags, present or not", "why_tests_cant": "The functions meet texts from any microscope; tests use those of the sample files.", "anchors": ["rsciio/digitalmicrograph/_api.py: ImageObject._get_mode, _get_quantity, _get_exposure_time, _get_microscope_name, signal_type"]}
{"id": "C135", "title": "Spectrum images of Bruker files", "statement": "The maps read are those asked for: the first one, all, or the one with the given number, and another number is an error. Each has the data decoded for the shape given by the image divided by the downsampling factor, rounded up, and by the number of channels; axes with the step of rows and columns times the factor and the energies of its spectrum; the beam energy, the magnification, the detector, the real time; elements sorted without repetition and the lines of all regions. The number of channels is that of the energy nearest to the cut-off, or to the beam energy if it is below the range of the detector, or up to the last channel with counts, or all.", "quantifier": "all headers, spectra, sets of maps, factors and cut-offs, for any decoder", "why_tests_cant": "The options multiply (index, factor, four kinds of cut-off, instrument) and the metadata depend on what the file has; tests use a few files with equal steps and one map.", "anchors": ["rsciio/bruker/_api.py: HyperHeader, BCF_reader.parse_hypermap, bcf_hyperspectra, EDXSpectrum.energy_to_channel, last_non_zero_channel, parse_line, gen_elem_list"]}
{"id": "C136", "title": "Images of Bruker files", "statement": "Each plane of the image of the map, and in version 2 files of the overview, that is not blank is a signal with the pixels that base64 encodes, row by row, whatever line breaks the text has; with its title, steps and units. A plane with another number of pixels is an error. Images, maps or both are returned as asked.", "quantifier": "all images, pixel sizes, numbers of planes, line breaks and entries of the file", "why_tests_cant": "Base64 and the number of bytes of a pixel admit any content; tests compare few images of a few files.", "anchors": ["rsciio/bruker/_api.py: HyperHeader._parse_image, _set_images, bcf_images, bcf_reader"]}
{"id": "C137", "title": "Spectra of Bruker spx files", "statement": "The signal has the counts written in the file, the energies of its channels, the mode from the beam energy, the detector with its times in seconds, the date and time in ISO form, the name, and the list of selected elements; dates that are not in the calendar are an error.", "quantifier": "all spectra, counts, dates and lists of elements", "why_tests_cant": "Dates of any length of month and optional entries; tests read two files.", "anchors": ["rsciio/bruker/_api.py: spx_reader, EDXSpectrum.__init__, gen_detector_node, gen_iso_date_time, guess_mode"]}
{"id": "C138", "title": "MRC files give the array, type and axes of their header", "statement": "An MRC file is read as the array of its sections, rows and columns, the sections in the shape the user gives, beginning behind the header and the extended header, with the type of the mode. The axes x, y and z have the sizes of the array, the length over the number of cells in nm (1 without cells) and the origin in nm; with an FEI header the pixel size of that header. An unknown mode, a file without header, or one that ends too early is an error.", "quantifier": "all headers, modes, navigation shapes and lengths of files, both byte orders", "why_tests_cant": "Modes, extended headers, zero cells and shapes combine; tests have a few files of the common modes in little endian.", "anchors": ["rsciio/mrc/_api.py: get_std_dtype_list, get_fei_dtype_list, get_data_type, file_reader"]}
{"id": "C139", "title": "Metadata of Direct Electron cameras give the scan and its axes", "statement": "The text file beside a movie is the dictionary of its lines. A raster scan is an array of y, x and the image with the sizes of the scan or of its region of interest, without axes of one point; a scan with a list of positions puts every frame at a place of its own, row, column and number of the visit, within the shape; other files are movies of the specimen or, with a camera length, of the diffraction pattern, with the time between the saved frames. The axes describe the dimensions of the array in order. The gain is the inverse of the units per electron.", "quantifier": "all dictionaries of metadata, sizes, lists of positions and headers", "why_tests_cant": "The entries combine freely (mode, scan, region, positions, repeats); tests have a handful of small data sets.", "anchors": ["rsciio/mrc/_api.py: read_de_metadata_file, file_reader"]}
{"id": "C140", "title": "The axes of Tofwerk signals have the sizes of the data and span the field of view", "statement": "Reading a Tofwerk file gives the requested signals; for each of them every dimension of the data has an axis of its length: the depth axis counts the slices read, y and x have the pixels of a slice, scaled so that a row is as long as the field of view (also for the images, with their own number of pixels), and the mass axis has the masses of the peaks of the kind within the range, or of the sum spectrum. Empty ranges of slices or masses are refused.", "quantifier": "all files, depth and mass ranges, requests, batch sizes, lazy or not", "why_tests_cant": "Attributes and data sets of the file may disagree (stopped acquisitions, rectangular fields); tests have synthetic square files.", "anchors": ["rsciio/tofwerk/_api.py: _parse_pixel_size, _build_axes_preprocessed, _build_axes_event_list, _build_axes_fib_images, file_reader"]}
{"id": "C141", "title": "Times and numbers of Tofwerk metadata are those of the file", "statement": "Date, time and zone are those of the acquisition log, otherwise those of the file without a zone; the mass range is from the least to the greatest mass; the pixel size of the metadata is that of the axes; the reconstruction is normalised by the waveforms times the channels that record, and uses as many clock ticks per sample as the sample interval has.", "quantifier": "all logs, attributes, mass axes, peak tables and configuration texts", "why_tests_cant": "Zones behind UTC with minutes, configurations with many channels and rectangular fields do not occur in the test files.", "anchors": ["rsciio/tofwerk/_api.py: _parse_creation_time, _build_metadata, _compute_peak_data_from_file", "rsciio/tofwerk/_reconstruction.py: count_active_channels"]}
{"id": "C142", "title": "Digital Surf metadata keep date, time and quantity", "statement": "Date and time of a header are shown in the format of ISO, and those of a signal are written so that they are read as the same; the quantity is the name of the Z axis with its units in parentheses, and is written and read as the same; author, name of the file and kind of signal are those of the header.", "quantifier": "all headers, dates and times with years of four digits, names and units", "why_tests_cant": "The tests read dates of a few files; midnight, dates without a time and quantities of several words do not occur.", "anchors": ["rsciio/digitalsurf/_api.py: _build_generic_metadata, _get_Zname_Zunit, _build_workdict", "rsciio/utils/_date_time.py: get_date_time_from_metadata"]}
{"id": "C143", "title": "Digital Surf comments are taken as metadata just if they are, and come back", "statement": "A comment is parsed just if every line is a title, a pair or ignored and some line is not ignored; by default the first non-empty parsed metadata of an object are written, the original metadata themselves if there are no objects; parsed metadata are read as the same after writing.", "quantifier": "all comments as lines, all original metadata and all dictionaries of sections", "why_tests_cant": "The set of comments and of nested original metadata is unbounded; the tests use single files.", "anchors": ["rsciio/digitalsurf/_api.py: _check_comments, _get_comment_dict, _build_original_metadata"]}
{"id": "C144", "title": "Metadata of cathodoluminescence have the units of their values", "statement": "Metadata of the microscope, the spectrometer and the detector are the values of the comment with the units that stand beside them; other signals have none.", "quantifier": "all comments and headers", "why_tests_cant": "The tests compare one file, in which the wrong units are compared with themselves.", "anchors": ["rsciio/digitalsurf/_api.py: _map_SEM_metadata, _map_Spectrometer_metadata, _map_spectral_detector_metadata, _map_CL_metadata"]}
{"id": "C145", "title": "Images are written as they are or as figures of the asked size", "statement": "Without a scale bar, a size or options the array itself is written, colours as channels. With them a figure of the asked width and height in pixels is written: both if given, the height in proportion if only the width is given, else those of the image; other sequences, dimensions and formats are refused.", "quantifier": "all images, options, sizes and aspect ratios, greyscale or in colours", "why_tests_cant": "The tests write a few sizes and look at the shape of the file; stacks, texts as aspect and extensions in capitals do not occur.", "anchors": ["rsciio/image/_api.py: file_writer"]}
{"id": "C146", "title": "Scale bars have the scale and the units of the image", "statement": "A scale bar is drawn just if both axes have the same units and scales that differ by at most a tenth of a pixel over the width; it has the scale and the units of the image, with the dimension that they have, and the options given. Images written one after the other with the same options are written as if alone.", "quantifier": "all images, scales, units, options and sequences of calls", "why_tests_cant": "The tests compare single calls; the options of the caller are changed by a call, which shows in the next one only.", "anchors": ["rsciio/image/_api.py: file_writer"]}
{"id": "C147", "title": "Metadata of Panta Rhei files have the units of HyperSpy and come back after writing", "statement": "The beam energy in keV is that of voltage and shift, angles in mrad are those in rad, mode and magnification are those of the source, title, date, time, type and aperture are those of the file; and metadata written in a new file are read from it as the same.", "quantifier": "all dictionaries of metadata, of files and of signals", "why_tests_cant": "The tests read a few files and write one signal; titles with dots, zones of times, missing modes and apertures in words do not occur.", "anchors": ["rsciio/pantarhei/_api.py: _metadata_converter_in, _metadata_converter_out"]}
{"id": "C148", "title": "Headers of Merlin files are read as they are written", "statement": "The header of a file, of one chip or of four, gives the rows and columns of the images, the kind of the pixels, the arrangement of the chips, the time of a frame in milliseconds and the timestamp; the entries of the header file beside it, which has the same name but for its ending, are all kept.", "quantifier": "all headers as lists of fields, all header files as lists of entries, all names", "why_tests_cant": "The tests read a few small files; unknown kinds of pixels, names in capitals and folders named like files do not occur.", "anchors": ["rsciio/quantumdetector/_api.py: MIBProperties.parse_file, parse_hdr_file, _parse_exposure_to_ms, file_reader"]}
{"id": "C149", "title": "Scans of Merlin files have the lines that were scanned", "statement": "Without a given shape a file is read as with the shape of its scan: lines are the triggers, and if there is one frame in a trigger, a line ends where the step in time is longer; frames at regular times are a stack.", "quantifier": "all numbers of frames and lines, all timestamps, with and without a header file", "why_tests_cant": "The lines are guessed from times, for which the tests have a few files; frames at slightly irregular times give another shape.", "anchors": ["rsciio/quantumdetector/_api.py: file_reader, parse_timestamps"]}
{"id": "C150", "title": "Images of Merlin files have the pixels of the file, upside down", "statement": "Each pixel of each image is that of the file in the mirrored row, big-endian in its kind; the shape is that of the scan followed by rows and columns, with the axes of the scan for navigation; date, time, time zone and the time of a frame in seconds are those of the header.", "quantifier": "all sizes, kinds of pixels, pixels, numbers of frames and shapes of scans", "why_tests_cant": "The tests compare shapes and a few values; images of one row, where the scan is mirrored instead, do not occur.", "anchors": ["rsciio/quantumdetector/_api.py: load_mib_data, file_reader"]}
{"id": "C151", "title": "Metadata of .emi files are those of the file", "statement": "All texts of a .emi file, and all entries of the description of the experiment, with numbers for entries with units, are in the original metadata at their paths and nothing else is; beam energy, camera length, magnification, tilts and positions of the stage, mode, microscope, camera and author are in the metadata in the units of HyperSpy.", "quantifier": "all trees of elements, entries, values and units", "why_tests_cant": "The tests read a few files of one software; values without content, blanks between elements and headers of images do not occur.", "anchors": ["rsciio/tia/_api.py: emixml2dtb, parse_ExperimentalDescription, parse_TrueImageHeaderInfo, mapping, _get_simplified_mode, _get_microscope_name"]}
{"id": "C152", "title": "Diffraction patterns of .ser files are in reciprocal units", "statement": "Images are in 1/m just if they are diffraction patterns: taken in STEM with a camera or in a scan of more than one position, or in a mode of diffraction of the TEM; else they are in m.", "quantifier": "all modes, cameras, and sizes of dimensions", "why_tests_cant": "The tests have one file for some of the cases; files without information on the acquisition do not occur.", "anchors": ["rsciio/tia/_api.py: _guess_units_from_mode"]}
{"id": "C153", "title": "Calibrations of Ripple files come back", "statement": "Axes of a signal that is written as a Ripple file come back with name, scale, offset, units and length, those of navigation before those of the signal, each in the order of the array.", "quantifier": "all signals of up to three axes, all calibrations and units", "why_tests_cant": "The tests write a few shapes; images of one column and stacks of one image, which come back with other axes or are refused, do not occur.", "anchors": ["rsciio/ripple/_api.py: file_writer, file_reader"]}
{"id": "C154", "title": "Metadata of Ripple files come back", "statement": "Title, date, time and type of a signal come back, and so do the values of its instrument for EELS and EDS: those that are there come back at the same place, and no others appear.", "quantifier": "all titles, dates, types of signals, and instruments with any values present or missing", "why_tests_cant": "The tests write two kinds of signals with all values; a SEM, other kinds of signals and missing values do not occur.", "anchors": ["rsciio/ripple/_api.py: file_writer, file_reader"]}
{"id": "C155", "title": "Headers of INCA are read like Ripple headers", "statement": "A header of INCA, with entries of the form (MLX::key : value), is read as the header with these keys and values, regardless of case and of the order of its lines.", "quantifier": "all headers", "why_tests_cant": "There is no such file among those of the tests.", "anchors": ["rsciio/ripple/_api.py: correct_INCA_format, parse_ripple"]}
{"id": "C156", "title": "Intensities of blockfiles are scaled as asked", "statement": "A number is written as the byte asked for: the range of the type of integers, of the data, of 0 to 255 or given by the user is mapped to 0 to 255, rounded down, with what is below and above cut off; without scaling numbers from 0 to 255 keep their value. The bytes are read at the places of the numbers.", "quantifier": "all arrays, types, scalings and ranges", "why_tests_cant": "The tests write a few arrays; ranges in the wrong order, constant data and numbers beyond bytes do not occur.", "anchors": ["rsciio/blockfile/_api.py: file_writer", "rsciio/utils/_skimage_exposure.py: rescale_intensity"]}
{"id": "C157", "title": "Blockfiles have an image for navigation", "statement": "The image for navigation is in the file at the first offset: zeros, the navigator of HyperSpy, the mean of each pattern, or a given image with the shape of the scan, scaled as the data; other arguments are refused.", "quantifier": "all scans, images and scalings", "why_tests_cant": "The reader does not read the image, so that round trips say nothing about it.", "anchors": ["rsciio/blockfile/_api.py: file_writer"]}
{"id": "C158", "title": "Calibrations of blockfiles come back", "statement": "The steps of a scan are written and read in nm and those of the patterns in cm, within the precision of the format; beam energy, camera length and rotation are in the units of HyperSpy; the signal of the caller is not changed.", "quantifier": "all scales and units, scans of up to two dimensions", "why_tests_cant": "The tests write scales that the format represents exactly, once for each signal.", "anchors": ["rsciio/blockfile/_api.py: get_header_from_signal, file_reader, mapping"]}
{"id": "C159", "title": "Date, title and quantity of Renishaw files", "statement": "The date and time of a measurement are those of its start in the header (100 ns intervals since 1601) without the fraction of a second; title and name of the file are kept, and the quantity names the unit of the intensity.", "quantifier": "all headers", "why_tests_cant": "The tests read a few files with fixed dates; leap years, ends of months and fractions near a full second do not occur.", "anchors": ["rsciio/renishaw/_api.py: convert_windowstime_to_datetime, _parse_WDF1, _map_general_md, _map_signal_md"]}
{"id": "C160", "title": "Laser, grating and detector of Renishaw files", "statement": "The wavelength of the laser in nm, the density of grooves of the grating, model and temperature of the detector, the number of frames and the time of integration in seconds are those of the metadata of the file, and missing ones are left out.", "quantifier": "all trees of metadata", "why_tests_cant": "The tests compare the metadata of a few files, each with one laser and complete metadata.", "anchors": ["rsciio/renishaw/_api.py: _find_key, _get_key, _map_laser_md, _map_spectrometer_md, _map_detector_md, map_metadata"]}
{"id": "C161", "title": "Mapped area in the white light image of Renishaw files", "statement": "The rectangle in the white light image covers the points of the map, no more and no less than one step.", "quantifier": "all maps", "why_tests_cant": "The tests compare one rectangle with stored numbers.", "anchors": ["rsciio/renishaw/_api.py: _get_WHTL, _parse_WMAP"]}
{"id": "C162", "title": "Calibrations of TVIPS files", "statement": "The sizes, scales, offsets and units of the two axes of images come back after writing and reading, in nm or 1/nm, rounded to whole numbers.", "quantifier": "all stacks of images with units of length or inverse length", "why_tests_cant": "The tests write signals whose axes have the same whole scales and no offsets.", "anchors": ["rsciio/tvips/_api.py: _guess_image_mode, _get_main_header_from_signal, file_writer, file_reader"]}
{"id": "C163", "title": "Times of the frames of TVIPS files", "statement": "Frame k of a written recording has the time of the start plus k steps; the time axis that is read has this step and this start, and date and time of the recording are those that were written.", "quantifier": "all starts, steps and numbers of frames", "why_tests_cant": "The tests have one start at a whole second and one step, and do not compare the date in other time zones.", "anchors": ["rsciio/tvips/_api.py: file_writer, file_reader"]}
{"id": "C164", "title": "Metadata of TVIPS files", "statement": "The position and the tilts of the stage, the beam current and energy, the defocus, and magnification or camera length come back after writing and reading.", "quantifier": "all metadata", "why_tests_cant": "The tests compare a few values of one signal.", "anchors": ["rsciio/tvips/_api.py: _get_main_header_from_signal, file_writer, file_reader"]}
{"id": "C165", "title": "Metadata of instruments in TIFF files", "statement": "Metadata of FEI, Zeiss, TVIPS, Olympus and JEOL files get the values of the tags in the units of HyperSpy: keV, nA, mm, s; camera lengths of diffraction patterns and magnifications of images; missing tags and texts that are no numbers do not hinder the others.", "quantifier": "all trees of tags and all values", "why_tests_cant": "The tests compare the metadata of some files, with the units they happen to have.", "anchors": ["rsciio/tiff/_api.py: mapping_fei, mapping_cz_sem, get_tvips_mapping, get_jeol_sightx_mapping, get_metadata_mapping, _parse_tuple_Zeiss_with_units, _parse_tvips_time"]}
{"id": "C166", "title": "Metadata of the instrument in Phenom files", "statement": "The metadata of the instrument of each spectrum of an ELID file are what the bytes of the file say, in the units of HyperSpy: angles in degrees, distances in mm, energy of the beam in keV, times in s; values that are missing are left out.", "quantifier": "all files of the versions 0 to 4, all values", "why_tests_cant": "The tests compare a few values of three files, all with the voltage in kV and positions without units.", "anchors": ["rsciio/phenom/_api.py: _make_mapping, _read_eds_metadata"]}
{"id": "C167", "title": "Names of the files of TVIPS recordings", "statement": "A recording that is written under a name, or under the name of its first file, is in the files name_000, name_001 and so on; reading the first of them reads exactly these files, in order, and gives the frames back; names with other numbers or without a number are rejected, and other files are left alone.", "quantifier": "all folders, names, numbers of files and recordings", "why_tests_cant": "The tests write to empty folders, with a few files.", "anchors": ["rsciio/tvips/_api.py: _is_valid_first_tvips_file, file_reader, file_writer"]}
{"id": "C168", "title": "Metadata of Tofwerk files", "statement": "The metadata of a Tofwerk file are what its attributes say: voltage of the beam in kV, current, field of view and size of the pixels, counts, coefficients of the calibration of masses, mode, hardware and versions, mean pressure and table of peaks, with the stated values for attributes that are missing; and the original metadata have all attributes of the file.", "quantifier": "all files, with attributes stored as single values or as arrays, as bytes or as texts", "why_tests_cant": "The tests use made-up files that have all attributes, stored in one way.", "anchors": ["rsciio/tofwerk/_api.py: _build_metadata, _build_original_metadata, _peak_table_to_list, _decode, _decode_attr"]}
{"id": "C169", "title": "Names of the EXIF tags of images", "statement": "Each EXIF tag of an image is in the original metadata under its name, with its value, and nothing else is.", "quantifier": "all images and tags, all tables of names", "why_tests_cant": "The tests look at a few tags of one image.", "anchors": ["rsciio/utils/_image.py: CustomTAGS, _parse_exif_tags"]}
{"id": "C170", "title": "Colours of Digital Surf files", "statement": "After reading, the colours of an image have the values of the file, with 8 or 16 bits as in the file; binary images are set where the number is not zero.", "quantifier": "all data", "why_tests_cant": "The tests read one image of 8 bits of each kind.", "anchors": ["rsciio/digitalsurf/_api.py: post_process_RGB, post_process_binary"]}
{"id": "C171", "title": "Nested parts of Renishaw metadata", "statement": "The values of the nested parts of the block WXDM that have their names in the block are in the original metadata under these names, each at the place of its part, and nothing else is.", "quantifier": "all trees of parts, keys and values", "why_tests_cant": "The tests have a few files, whose parts are numbered so that no two identifiers clash.", "anchors": ["rsciio/renishaw/_api.py: _match_WXDM_values, _map_WXDM"]}
{"id": "C172", "title": "Records of FEI in MRC files", "statement": "In an MRC file with the extended header of FEI, the metadata have tilts and positions of the stage, exposure and magnification of every image, and the original metadata all numbers of the records; files without this header have none of these.", "quantifier": "all files and byte orders", "why_tests_cant": "The tests read one file and compare one number.", "anchors": ["rsciio/mrc/_api.py: get_fei_dtype_list, file_reader, mapping"]}
{"id": "C173", "title": "Texts of serial dates", "statement": "A serial date is shown as the local date and time of its moment, and a date, time and zone given as texts have the serial date of the moment that they mean; the texts that a serial date is shown with give it back.", "quantifier": "all dates, times and zones", "why_tests_cant": "The tests convert a few dates in UTC and with numeric zones.", "anchors": ["rsciio/utils/_date_time.py: serial_date_to_ISO_format, ISO_format_to_serial_date"]}
