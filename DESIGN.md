# Formal model of rosettasciio: design

The model is written in Lean 4 under `lean/Verif`. For every topic `X` there are
up to four modules:

* `Verif/Model/X.lean`: the code, function by function, with `file:lines` citations;
* `Verif/Spec/X.lean`: a small specification that does not use the model;
* `Verif/Lemmas/X.lean`: helper lemmas (no claim is stated here);
* `Verif/Props/X.lean`: the property theorems, each with an `example` that
  exhibits a concrete, non-trivial case meeting its hypotheses.

`properties.jsonl` lists the properties, `MANIFEST.json` maps them to theorem
names, `seeded/LOG.jsonl` records the wrong programs the theorems were tried on.

## Modelling conventions

* Python integers are `Int`/`Nat`; fixed-width NumPy integers wrap explicitly
  (`% 2^k`) wherever a property depends on the width.
* A byte is `UInt8`, a file is `List UInt8`; a file handle is the remaining
  suffix (or content + position when the code seeks).
* A NumPy array is a shape plus either the flat C-order list of its elements or
  an index function with explicit bounds checks; an out-of-range index is an error value.
* Exceptions are values: `Except PyErr α` with one constructor per exception class.
* Loops are structural recursion over the data the Python loop iterates over;
  `while` loops carry an explicit measure or fuel with a proof that it suffices.
* A Python dict is an association list with insertion order (`Verif.Py.Assoc`).
* Mutation is returned as a new value; module-level globals are explicit state.

## Trusted base

* Lean's kernel, and for each property theorem at most the axioms `propext`,
  `Classical.choice`, `Quot.sound` (checked with `#print axioms`; see
  "Axioms" below). No axiom, `sorry`, `native_decide` or `bv_decide` is used.
* The hand translation of the cited Python (and one Cython) functions.
* The stated behaviour of external code: NumPy (`reshape`, `fromfile`, `squeeze`,
  fancy indexing, integer wrap-around), dask (`normalize_chunks` returns per-axis
  chunk lengths that add up to the shape; `map_blocks` calls the function once per
  block and concatenates), `sparse.COO` (sums duplicates), h5py/zarr groups (a
  map from names to datasets, attributes and groups), `struct`, `zlib`, the OS file API.
  Each is a parameter or a small definition with its assumption in a comment.

Not modelled: floating-point rounding, real file-system races, memory limits,
HDF5/TIFF/zip container internals, plotting, performance.


## What is modelled

One paragraph per model, taken from the model file, with the lines of `/repo` its definitions cite.

* **Arina** (21 definitions). Model of `rsciio/arina/_api.py` (4D-STEM data of Dectris Arina detectors). A dataset of the master file is a list of frames of the same shape, each a list of rows; datasets are in the order of iteration over the group. Numbers are exact rationals: rounding of floats is not modelled, conversion to unsigned integers is (towards zero, then modulo the width, which is what the usual platforms do). `int(np.sqrt(n))` is the integer root, exact for all n below 2^52. Not modelled: missing files, errors of the library, negative numbers in `navigation_shape` and negative binning.
* **Blockfile** (22 definitions). Model of `rsciio/blockfile/_api.py`. Unit conversion, metadata mapping and `intensity_scaling` are in `BlockfileScale`; here the pixels and the virtual bright field arrive as bytes. Left out: dates and the dask `store`. Floats are 8-byte bit patterns. `filename` is the byte list of the file.
* **BlockfileScale** (24 definitions). Model of what `rsciio/blockfile/_api.py` does with intensities, calibrations and the virtual bright field image before the bytes of `Blockfile` are written, and of the calibrations that are read; with `rsciio/utils/_skimage_exposure.py`. Numbers are exact: the rounding of floats is left out, and so are NaN and infinities. `convert_units` (pint) is a parameter, with `none` for its exceptions; so are the eight bytes of a float, and the cast of a float that does not fit in a byte. Warnings, names and offsets of axes, and lazy data are left out.
* **Bruker** (59 definitions). Model of the signals of Bruker files, `rsciio/bruker/_api.py` (`EDXSpectrum`, `HyperHeader`, `BCF_reader`, `spx_reader`, `bcf_reader`, lines 452-1057 and 1261-1600). The container and the decoders of the maps are in `Model/Sfs.lean` and `Model/Hypermap.lean`; here the map of an index, decoded for a shape and a factor, is the parameter `parse`. The XML header has been parsed and its branches turned to dictionaries (`Model/Xml.lean`): the values used are gathered in `Header` and `Spectrum`. Numbers are exact rationals. Left out: the layers of the detector (base64 and zlib), stage positions, markers, the copies of the dictionaries in `original_metadata`, log messages. `np.fromstring` is modelled for numbers of decimal digits; on other texts it is taken to raise. Dates are modelled for digits.
* **DMImage** (11 definitions). Model of the unpacking of packed complex images, `rsciio/digitalmicrograph/_api.py` (`ImageObject.unpack_new_packed_complex`, `unpack_packed_complex`). Real numbers are an arbitrary type with zero and negation; a complex number is a pair, so `realpart + imagpart * 1j` is the pair of its parts (finite numbers; signed zeros are not distinguished). Images are functions of row and column.
* **DMSignal** (41 definitions). Model of the images of a Digital Micrograph file, `rsciio/digitalmicrograph/_api.py` (`get_image_dictionaries`, `ImageObject`, `file_reader`, lines 425-1348). The tag tree has been parsed (`Model/DigitalMicrograph.lean`); the entries of an image that the code uses are gathered in `Im`. Calibrations are rational numbers: the rounding of the product `-origin * scale` is left out. Stored numbers are the bit patterns of their data type; the computer is little-endian. The unpacking of packed complex images is in `Model/DMImage.lean`: here the numbers handed to it are given. Image tags are named `TagGroup0`, `TagGroup1`, …; other names raise an error, as in Python, except names with `TagGroup` elsewhere than at the start, which are left out. The table of metadata sources (`get_mapping`) is modelled as far as the functions it calls; the table itself is left out, and so are dates.
* **DateTime** (4 definitions). Model of the serial-date functions of `rsciio/utils/_date_time.py`, lines 53-68. A date and time is its distance in seconds from the origin 1899-12-30 (UTC). Simplification: `float` arithmetic is exact rational arithmetic, so a serial date is a rational number, and the microseconds that `delta.seconds` ignores are a separate argument.
* **Delmic** (52 definitions). Model of `rsciio/delmic/_api.py` (HDF5 files of Delmic, written by Odemis). A file is the list of the objects at its root, as `h5py` delivers them. Simplified: numbers in the file are exact rationals without NaN, a dataset of `ImageData` is the list of its values, the data is a list in C order. What `datetime.fromtimestamp` makes of a number is external. Exceptions in parts that the code guards are the values of the guard. Not modelled: log messages.
* **Dens** (20 definitions). Model of `rsciio/dens/_api.py` (log files of the DENSsolutions DigiHeater). Simplifications: numbers are exact (`float(text)` is the parameter `num`, `none` for a `ValueError`); reading the date of the first line (`strptime` with `"%d/%m/'%y %H:%M"`) is the parameter `dateOf`; digits are ASCII; `fitAxis` (`polyfit` of degree 1) is that of `Model/RenishawData`; the file name in the metadata is left out. The result is `none` when the code does not end.
* **Deprecated** (9 definitions). Model of `deprecated_argument`, `rsciio/utils/_deprecated.py` lines 111-180. The warning text and the warning itself are not modelled; the result is the keyword dictionary that the wrapped function receives.
* **Dictionary** (13 definitions). Model of `rsciio/utils/_dictionary.py`. `DTBox` is a `box.Box` (external). Modelled behaviour of `Box` with `box_dots=True`, for boxes whose keys contain no dots: `box[path]`, `box.get(path)` and `box[path] = v` walk the dotted path through nested boxes; `get` returns `None` when the walk fails; dictionaries assigned as values become boxes. A path is the list of its keys (`path.split(".")`).
* **DigitalMicrograph** (33 definitions). Model of the tag parser of `rsciio/digitalmicrograph/_api.py` (`DigitalMicrographReader`). The file is the list of bytes not yet read; the position is the length of the file minus theirs. Simple values are bit patterns together with their type code. Texts are lists of bytes; tag names are shown one character per byte (the decoding of lines 331-336 is left out). Negative lengths and counts, which the format does not have, are taken as zero.
* **Digitalsurf** (111 definitions). Model of `rsciio/digitalsurf/_api.py`: the binary format of `.sur` and `.pro` files (all fields), the compression of points, the normalisation of data to integers and its inverse, and the mapping of signals to objects and back. Simplifications: `zlib` is a pair of functions; floating-point numbers are rationals and arithmetic in double precision is exact (the rounding of single precision is a parameter); infinities, and data without any finite value, are left out; axes have all their entries. `post_process_RGB` and `post_process_binary` are in `Verif.Model.DigitalsurfPost`; the mapping of header fields to metadata is left out here, but for the headers in `original_metadata`.
* **DigitalsurfComment** (15 definitions). Model of the comments in `rsciio/digitalsurf/_api.py`: `parse_metadata` and `_stringify_dict`. Simplifications: what Python does with single values is given by parameters: `str` is `v.__str__()`, `lit` is `ast.literal_eval` (`none` if it raises), `ofText` is a text as a value; `strDict` is `str` of a dictionary.
* **DigitalsurfMeta** (32 definitions). Model of the metadata of `rsciio/digitalsurf/_api.py`: the generic metadata made of a header, the date, the name and the units that are written, the comments that count as metadata, the choice of what is written as comment, and the metadata of cathodoluminescence; and of `get_date_time_from_metadata` of `rsciio/utils/_date_time.py`. External: `dateutil` (`Parser`: the numbers of a date and time in a text, and whether a zone is known) and `datetime.weekday`. Simplifications: `\d` stands for ASCII digits; keys of the original metadata are texts.
* **DigitalsurfPost** (5 definitions). Model of the functions of `rsciio/digitalsurf/_api.py` that are applied to signals after reading: `post_process_RGB` (lines 2025-2040) and `post_process_binary` (lines 2043-2045). The data are a list of numbers without NaN; the transposition of the signal, which changes no values, is left out. `change_dtype` of HyperSpy is taken as `astype` of NumPy followed by the view as colours: numbers lose their fraction and are taken modulo 2^8 or 2^16; what becomes of negative numbers is a parameter.
* **Distributed** (20 definitions). Model of `rsciio/utils/_distributed.py`. External code and its assumed behaviour: `dask.array.core.normalize_chunks` returns one list of chunk lengths per axis (the model starts from that list); `dask.array.map_blocks` calls the function once per block and the element of the result at index `x` is the element of block `b` at the local index, where block number and local index are found per axis from the chunk lengths (`locate`).
* **Edax** (55 definitions). Model of `rsciio/edax/_api.py`: spectra (`.spc`), spectrum images (`.spd`) and line scans (`.lsd`) with their calibration files, and of `rsciio/utils/_elements.py`. The file system is a function from paths to contents; paths are those of POSIX systems. Simplifications: a header that is cut short is an error as soon as it is read (NumPy returns arrays without elements, which fail when they are used as numbers); negative numbers of pixels and negative data offsets are errors; the names of bitmaps are ASCII text; the `.csv` file is given as text, without quotation marks, and numbers in it are read by a function `num`; scales and offsets are exact numbers; infinities and NaN are not modelled. The machine is little endian. Chunks of lazy arrays are those of `Distributed.lean`; here a lazy array is the array it stands for. The rest of the original metadata is not modelled.
* **EmdNcem** (95 definitions). Model of `rsciio/emd/_emd_ncem.py` (EMD files of the Berkeley variant, reading and writing) and of the choice of the variant in `rsciio/emd/_api.py`. A file is the attributes of the root and the list of its objects with their paths (no leading slash), in the order of `visititems`. Paths given to `h5py` are normalised: empty components and `.` disappear. The writer appends objects; their order does not matter as only one of them is a supported dataset. Numbers are rationals, without NaN in the file; the addition, the differences and the mean of the floating point unit are parameters. External: what `pint` makes of a unit, `str` of an attribute that is no text, the JSON of `Version`, the reader of Velox files. Simplified: attributes come back as they were written; `float` of a row of an axis with several dimensions fails; text data is not written. Lazy reading gives the same values. Not modelled: compression, log messages, links, `HDF5` errors for names with NUL.
* **EmdVelox** (98 definitions). Model of `rsciio/emd/_emd_velox.py` (EMD files of Velox), of lines 165-181 of `rsciio/utils/hdf5.py` and of `rsciio/utils/_units.py`. The decoder of event streams is `Model/Fei.lean`. A file is its groups with their parsed JSON; the metadata of a dataset is the JSON in the first column of `Metadata`. Numbers are exact. External, collected in `Env`: `float` and `int` of a JSON value, the text of a JSON value in a format, the unit `pint` chooses for a value (`to_compact`) and the ratio of two units, rounding to a double, local time, the number of values of an (unsigned) integer type. Simplified: pictures have three dimensions and the type is a number or one of the three pairs of floats of FFT and DPC pictures; the version is a number; a name used as unit is a text; `x in y` with `x` no text is an error. The functions behind the entries of `mapping` are not modelled, only which entries there are. Not modelled: log messages, chunks.
* **Empad** (21 definitions). Model of `rsciio/empad/_api.py`. Simplifications: the dictionary of the XML file (`convert_xml_to_dict`, see C83) is a function from paths to texts; `float` and `ast.literal_eval` of texts are parameters, and so is the choice of a unit by `to_compact` (an exponent of ten); numbers are exact; pixels are bit patterns; a scan of negative size raises; `lazy=True` (`memmap_distributed`, C03) and `remove_nans` are left out.
* **ExifNames** (5 definitions). Model of the names of the EXIF tags of an image: `rsciio/utils/_image.py` lines 19-27 (`CustomTAGS`) and 74-102 (`_parse_exif_tags`). The table of names of Pillow (`PIL.ExifTags.TAGS`) is a parameter, and so are the values of the tags. An image is modelled by the tags that `_getexif` or `getexif` gives for it, each number once, in their order. The axes are made of the named tags in `Verif.Model.ImageFile`.
* **Fei** (22 definitions). Model of `rsciio/utils/_fei_stream_readers.py`. The functions are numba-compiled in practice (`sparse`, imported at line 21, depends on numba). Simplification: an index outside the array is `IndexError` (the pure-Python behaviour); compiled code would touch foreign memory instead.
* **Genfromtxt** (12 definitions). Model of `np.genfromtxt(..., delimiter=",", dtype=None, names=names, skip_header=n)` as used by the Protochips and Impulse readers (NumPy: `lib/_npyio_impl.py`, `lib/_iotools.py`): which cells end up in which column, and under which name the column is found. The conversion of cells to numbers is left out: a column is the list of its cells.
* **Hamamatsu** (45 definitions). Model of `rsciio/hamamatsu/_api.py`. Simplifications: a byte of 128 or more in a text is a `UnicodeDecodeError` (texts of UTF-8 beyond ASCII are not modelled); floating-point numbers of the file are exact (or bit patterns, in the header); `float(text)` is a parameter (no value for a `ValueError`); an image of negative width or height raises; warnings, and `signal_type` of the metadata, are left out. `fitAxis` (the straight line of least squares, `polyfit` of degree 1), `chunk`, `number`, `numbers` and `decode` are those of `Model/Renishaw`.
* **HeaderArray** (9 definitions). Model of `sarray2dict` and `dict2sarray`, `rsciio/utils/_array.py` lines 24-74. A structured array with `n` records is one column of `n` values per field. A dictionary is an association list; assigning a value to a field of the same dtype stores it unchanged (NumPy).
* **HierDict** (59 definitions). Model of the dictionary storage of `rsciio/_hierarchical.py`: `HierarchicalWriter.dict2group` (lines 878-921), `parse_structure` (923-951) and `HierarchicalReader._group2dict` (561-663). A text is the list of its characters. External (h5py/zarr): a group is a mapping from names to attributes and a mapping from names to datasets and groups; names are used literally (the model does not split names at "/"); iteration order is arbitrary (`Env.order`). Lazy reading, signals stored inside metadata (`_sig_…`) and ragged arrays (`Model/Ragged.lean`) are left out.
* **HspyFile** (78 definitions). Model of whole hspy/zspy files: `HierarchicalReader` of `rsciio/_hierarchical.py` (`get_format_version` 189-206, `read` 208-278, `group2signaldict` 311-411), `HierarchicalWriter` (`overwrite_dataset` 714-816 for plain arrays, `write_signal` 821-876) and `file_writer` of `rsciio/hspy/_api.py` (lines 209-307) and `rsciio/zspy/_api.py` (lines 163-275). What files of versions before 3.0 need is in `Model/HspyOld.lean`. Groups, attributes, datasets and `dict2group`/`_group2dict` are those of `Model/HierDict.lean`. An array is a token; its shape is `FileEnv.shape`. External: names are used literally (titles like `.` that HDF5 treats as paths are left out); a dataset carries no attributes; text in a version number is limited to digits and dots; files are opened and closed as the libraries say; the h5py function that creates a dataset refuses the keyword `mode` (`TypeError`). Left out: ragged data (`Model/Ragged.lean`), chunk shapes (`Model/SignalChunks.lean`), signals inside metadata, zarr stores other than a folder.
* **HspyOld** (20 definitions). Model of the translation of hspy files of versions before 3.0: `group2signaldict` of `rsciio/_hierarchical.py`, lines 413-557. Only metadata whose sections (`Signal`, `General`, `TEM`, ...) are dictionaries are modelled; a section of another kind is an error here (`TypeError`; in the code it may be another error, or nothing at all).
* **Hypermap** (45 definitions). Model of the two decoders of Bruker maps, `py_parse_hypermap` of `rsciio/bruker/_api.py` and `rsciio/bruker/unbcf_fast.pyx`, and of `estimate_map_depth`. A map is the list of its pixels, row by row, each a list of counts. `M` is the number of values of the number type of the map (256 for `uint8`). Simplified: a stream is the list of the blocks that have not been read, the bytes of the buffer from the current offset on, and `size - offset` (both decoders use nothing else). Numbers are little endian. Reading or writing outside the memory of C arrays is the error `runtimeError` (it is undefined). The C conversions to `int` of gains are left out, since counts are kept modulo `M ≤ 2 ^ 32` anyway; only bits 40 and above of a gain are lost (lines 46-56 of `unbcf_fast.pyx`).
* **ImageFile** (9 definitions). Model of reading images: `rsciio/image/_api.py` lines 210-283 and `rsciio/utils/_image.py`. External code and its assumed behaviour: `imageio.imread` gives the decoded array; the EXIF tags are what Pillow gives, after naming (`_parse_exif_tags`); dask raises `TypeError` for a shape that is itself delayed (its length is unknown). Numbers are exact. Writing is in `ImageWrite`. Not modelled: the rest of the metadata.
* **ImageWrite** (31 definitions). Model of writing images: `rsciio/image/_api.py` lines 39-212. External code and its assumed behaviour: `matplotlib` gives the supported formats, rejects negative sizes of figures and shows arrays of two dimensions or of three with 1, 3 or 4 channels; a figure of `s / 100` inches at 100 dots per inch has `s` pixels; `pint` tells whether units are reciprocal lengths and gives their short name; `os.path.splitext` gives the extension. Numbers are exact. What `imageio` and `savefig` do with the image is not modelled, nor what the scale bar looks like.
* **Impulse** (18 definitions). Model of `rsciio/impulse/_api.py` (log files of DENSsolutions Impulse). Simplifications: cells are texts, except for the valve positions, which are numbers (`int32` does not overflow), and the times (`num`); the rows of the metadata file, as `csv.reader` returns them, are an argument (`none` without a file); the file name in the metadata is left out.
* **IsoDate** (8 definitions). Model of `serial_date_to_ISO_format` and `ISO_format_to_serial_date` of `rsciio/utils/_date_time.py`, lines 28-50. External code as parameters (`Env`): `dateutil` (the parser, the time zones by name and the local time zone) and the texts of dates and times. A date and time without zone is its distance in seconds from 1899-12-30 on the clock that shows it; a zone gives the seconds that its clock is ahead of UTC when it shows a time. Simplifications: microseconds are left out; the parser finds numeric zones only, as it does outside of UTC and the local zone; serial dates are exact, as in `DateTime`.
* **Jeol** (25 definitions). Model of the reading of event streams in `rsciio/jeol/_api.py` (`_skip_frame`, `_readframe_dense`, `_readframe_lazy`, `_readcube`). The stream is a list of 16-bit words. Spectrum images are functions of row, column and channel with natural numbers as values; the dtype is unsigned with maximum `maxv`. The functions are compiled with numba; an index outside the S(T)EM image, which compiled code does not check, and a variable used before it is set, which compiled code leaves undefined, are modelled by the exceptions of Python.
* **JeolAsw** (28 definitions). Model of `file_reader` (the choice of the reader), `_read_asw` and `_read_img` of `rsciio/jeol/_api.py`, lines 134-271. The file system is a function from absolute paths to bytes; the path given by the user is taken to be absolute and normal (`os.path.abspath`). Paths are those of POSIX. The readers of the other formats are a parameter. Decoding of bytes to text is a parameter, as in the model of `_parsejeol`. Floating-point arithmetic is exact. Dates are kept as serial numbers of days. Not modelled: the messages to the logger, and an archive that contains itself (the recursion is bounded by `fuel`).
* **JeolEds** (29 definitions). Model of `_read_eds` of `rsciio/jeol/_api.py` (spectra of JEOL, `.eds`), lines 1222-1475. The file handle is the list of the bytes that are left. Numbers are kept as the unsigned value of their bytes; `dbl` is the value of the bits of a double (infinities and NaN are not modelled) and `dec` is `_decode` (UTF-8, or else Shift JIS). `np.fromfile(..)[0]` at the end of the file is an `IndexError`, unpacking fewer values than names a `ValueError`; reading without an index never fails. The dates (days since 1899-12-30) are kept as bits. The comparison of an empty array with 5, at the end of a file, is false.
* **JeolPts** (32 definitions). Model of the loading of spectrum images of JEOL in memory: `_read_pts` and the set-up of `_readcube` in `rsciio/jeol/_api.py`, lines 274-643 and 791-922. The loops over the stream are in `Verif/Model/Jeol.lean`. The header is the record of the values that are used (its tree is in `Verif/Model/JeolTree.lean`). Numbers are rationals (no rounding). `rebin_energy`, the factors of `downsample` and the number of sweeps are not negative; `frame_start_index` is a list with `none` for -1. The S(T)EM image itself is left out except for its axes. Lazy loading, metadata and dates are not modelled here.
* **JeolTree** (26 definitions). Model of `_parsejeol` of `rsciio/jeol/_api.py`, the parser of parameter trees. Decoding of bytes to text (UTF-8, else Shift-JIS) is a parameter. Values of numeric types are kept as the numbers of their bytes. `tmp_dict`, a reference into `final_dict`, is represented by the path that leads to it. A missing end of the file inside of an array is simplified: the items that are there.
* **JobinYvon** (51 definitions). Model of `rsciio/jobinyvon/_api.py` (Raman and luminescence spectra of LabSpec, `.xml`). The elements below `LSX_Tree` and `LSX_Matrix` are given with their `ID` and text to the depth the reader looks at. Numbers are exact rationals; `np.fromstring(text.strip(), sep=" ")` and `float(text)` are external functions. The fit of a uniform axis is the exact straight line of least squares. Not modelled: parsing XML, more than one `LSX_Tree` or `LSX_Matrix`, elements without `ID`, elements without text, entries of the setup named `signal type` or `signal units`, messages.
* **MerlinFile** (42 definitions). Model of reading `.mib` files from disk: `MIBProperties.parse_file`, `parse_hdr_file` and `file_reader` of `rsciio/quantumdetector/_api.py`. Which frames are read is in `QuantumDetector`. Headers are ASCII. External code as parameters: `float` of a text, and NumPy's time of a timestamp as a whole number of nanoseconds. Means of times are exact. `np.dtype(None)` is `float64`; pixels are their unsigned value (for `float64` the bit pattern). A header size that is not known is a `TypeError` of NumPy. Logging, printing, memory mapping and chunks are left out.
* **Mrc** (46 definitions). Model of the handling of Direct Electron files and of the axes in `rsciio/mrc/_api.py`. File names are base names (all files are in one directory). Conversion of text to numbers is a parameter. Scan position files, and the binary header itself, are left out.
* **MrcFei** (8 definitions). Model of the extended header of FEI in `rsciio/mrc/_api.py`: `get_fei_dtype_list` (lines 225-249), the records that are read (lines 579-587), the part `fei_header` of the original metadata (lines 620-625) and `mapping` (lines 711-722). Numbers are the exact values of their single-precision patterns. `mapping` is applied by HyperSpy. The size of the extended header is given, as in `MrcFile.header`. A file that ends within the records leaves the position before the end of the extended header.
* **MrcFile** (63 definitions). Model of the file level of `rsciio/mrc/_api.py`: the header of an MRC file, what is read of its data, its axes, and the `.txt` file of metadata that Direct Electron cameras save beside it. A file is its bytes. `memmap_distributed` (modelled in `Verif.Model.Distributed`) appears as the request it gets: where the data begins, its type, its shape and the positions of the frames; it raises an error when the file is too short. Numbers of the header are the exact values of their single-precision patterns and quotients are exact. Conversion of text to numbers is a parameter. The scan position file is the list of its rows; a file of one row is read by `np.loadtxt` as an array of one dimension. The navigators (modelled in `Verif.Model.Mrc`), the chunks, and the values that are copied to the metadata unchanged are left out (those of the header of FEI are in `Verif.Model.MrcFei`).
* **Mrcz** (11 definitions). Model of `rsciio/mrcz/_api.py`. External code and its assumed behaviour: the `mrcz` library stores the array, the pixel sizes, the voltage, C3, the gain and the entries of the metadata; reading with `pixelunits="nm"` gives them back in a dictionary with its own fields (`_POP_FROM_HEADER`) and the entries of the metadata, if the pixel sizes were given in nm (other units are not modelled). Values of the metadata are opaque (`Val`). Not modelled: compression, byte order, asynchronous writing, and that mrcz before 0.5 wraps values in lists.
* **Msa** (41 definitions). Model of `rsciio/msa/_api.py`. Floats are an abstract type `F` with the conversions `float(text)` and `str(x)` given as parameters. The numbers of the data section are left out: the parser never changes a header parameter there, and the data lines of the writer are a parameter (`body`). Also left out: conversion of dates and times to ISO format and the derived entries `Signal.signal_type` and `Signal.quantity` of the metadata.
* **Netcdf** (20 definitions). Model of `rsciio/netcdf/_api.py` (files of EELSLab, the predecessor of HyperSpy). The netCDF library gives the attributes of the file, its variables, their shapes and values. `eval("dc." + name)` after `hasattr` is the attribute. Not modelled: the log messages, and `original_metadata` apart from the three dictionaries and `record_by`; `"history" in calibration_dict` (line 122) is always false.
* **Nexus** (127 definitions). Model of `rsciio/nexus/_api.py` (NeXus files, reading and writing) and of `list_datasets_in_file` and `read_metadata_from_file` in `rsciio/utils/hdf5.py`. A file is the tree of its groups, with the target below every link; links in circles and links without a target are not modelled. The children of a group are in the order in which HDF5 gives them, by name. Byte strings are the texts that they are decoded to. Names have no slash and are not a dot; the object at a path is the one that was found there. Numbers are rationals and arithmetic on them is exact. `set` gives its elements in an order that is external. Not modelled: chunks and lazy arrays, compression, axes with values in more than one dimension, lists of dictionaries in a dictionary with `attrs` and `value`, signals within the metadata together with `metadata_key`, log messages.
* **Npy** (3 definitions). Model of `inspect_npy_bytes`, `rsciio/utils/_tools.py` lines 134-190.
* **NumpyFile** (13 definitions). Model of `rsciio/numpy/_api.py` (reading and writing `.npy` files). A file is what its header says and its elements in the order of the file. External code and its assumed behaviour: `numpy.save` writes an array in Fortran order, and says so in the header, when it is contiguous in Fortran order and not in C order, otherwise in C order; `numpy.load` gives back the array in the order named in the header; both fail when there are not enough elements. The header itself and the position of the data are in `Model/Npy`; splitting into chunks is in `Model/Distributed`. Chunks are those `normalize_chunks` gave. Not modelled: keyword arguments of `numpy.load`, `numpy.save` and `memmap_distributed`, structured and object dtypes.
* **Pantarhei** (58 definitions). Model of `rsciio/pantarhei/_api.py`: the axes of `.prz` files, and lazy loading. Simplifications: numbers are rational (the code uses floating point). Metadata is reduced to the entries that axes depend on. A calibration dictionary without any of the four entries below counts as empty.
* **PantarheiMeta** (27 definitions). Model of the metadata of `.prz` files: `_metadata_converter_in` and `_metadata_converter_out` of `rsciio/pantarhei/_api.py`, lines 374-536. The lists that belong to the axes are in `Pantarhei`. Metadata are dictionaries from dotted paths to numbers or texts. Numbers are exact. External code as parameters: `float` of a text, `str` of a number, and `datetime.fromisoformat` followed by `isoformat` of its date and time. Values are numbers or texts (no lists, no `None`).
* **Path** (11 definitions). Model of `rsciio/utils/path.py`. A path is a directory (kept as it is) and a final component (`name`). The state of the file system is a predicate on paths.
* **Phenom** (98 definitions). Model of `rsciio/phenom/_api.py` (ELID files of Phenom microscopes). The reader works on the decompressed bytes. External functions, collected in `Env`: the bzip2 decompressor, the value of the bit pattern of a float, decoding UTF-8, `float(text)`, and `tifffile`, which delivers the picture and the parsed XML of the tag `FEI_TITAN`. Simplified: numbers computed from floats are exact rationals, `math.radians` is a symbol; a read beyond the end is an error (on a truncated file the code waits for input for ever, after the end of the stream it raises); a picture is its rows, columns and a list of samples (`regular_array2rgbx` changes neither rows nor columns). A plain `Exception` is `runtimeError`. Not modelled: the name of the file, the time zone. The mapping of `original_metadata` to `metadata` is in `PhenomMapping`.
* **PhenomMapping** (10 definitions). Model of the table in `rsciio/phenom/_api.py` that says where metadata of the instrument are in the original metadata and how they are converted (`_make_mapping`). HyperSpy applies the table: an entry whose source is in the original metadata gives its converted value, later entries replace earlier ones. Simplified: arithmetic is exact; `math.degrees` of a number that the reader made with `math.radians` is the original number, of other numbers it is a symbol.
* **Protochips** (21 definitions). Model of `rsciio/protochips/_api.py` (log files of Protochips holders). Simplifications: cells are texts, and only those of the time column are converted (`num`, `none` if the text is no number); the date of the experiment (`strptime` and `np.datetime_as_string`) is the parameter `dateOf`; notes are the cells of the column (without the conversion of an empty column); letters are ASCII for `lower`; the mapping and the file name in the metadata are left out.
* **Quadstar** (34 definitions). Model of `rsciio/quadstar/_api.py`: `.sac` files (scan analog) and `.sbc` files (scan bargraph) as bytes. Simplifications: arithmetic of 64-bit floats is exact rational arithmetic; masses are finite single-precision numbers (`f32Dec`); intensities are bit patterns of single-precision numbers (with infinities and NaN). `10.0**e` compared with an array of single-precision numbers is the single-precision number next to `10^e` (NumPy 2: an infinity from `10^39` on). The loop over cycles and traces collects rows in dictionaries; here they are collected in lists. `original_metadata` is left out except for the values from which the rest is made.
* **QuantumDetector** (10 definitions). Model of `load_mib_data`, `parse_exposures` and `parse_timestamps` of `rsciio/quantumdetector/_api.py`. The file is a byte list, a frame is its record of header and pixels. Parsing of the first header, the reshaping of the frames to the navigation shape (row-major, which keeps their order) and squeezing are left out.
* **Ragged** (16 definitions). Model of the ragged-array storage of `rsciio/_hierarchical.py` (`flatten_data`, `unflatten_data`) and of the object datasets of `rsciio/hspy/_api.py` and `rsciio/zspy/_api.py` (`_get_object_dset`, `_store_data`). A cell of a ragged array is a NumPy array: shape, element type and C-order elements. The navigation array is its shape and its cells in `np.ndindex` order. External: h5py and numcodecs store, for one object dataset, variable-length lists of *one* element type; elements of another numeric type are cast to it on writing (`cast`).
* **Readfile** (11 definitions). Model of `rsciio/utils/_readfile.py` (integer and character readers; `read_float` and `read_double`, lines 174-205, only differ in the `struct` code and are not modelled). A reader returns the value and the file after the read.
* **Renishaw** (28 definitions). Model of `rsciio/renishaw/_api.py`, first part: the blocks of a `.wdf` file and the metadata blocks ("PSET"). Simplifications: a byte of 128 or more in a text is a `UnicodeDecodeError` (texts of UTF-8 beyond ASCII are not modelled); floating-point numbers and dates of the metadata are bit patterns; of the metadata without a partner (`_unmatched_metadata`) only the names of the blocks are kept; a compressed key (`None` in the code) has the name `None`. The loop over the blocks of a file need not end: it has a limit of rounds, and no result when the limit is reached. The loop over the entries of a metadata block reads four bytes in each round, so that a limit of as many rounds as there are bytes is never reached.
* **RenishawData** (35 definitions). Model of `rsciio/renishaw/_api.py`, second part: header, axes and data of a `.wdf` file. Simplifications: arithmetic of floating-point numbers is exact rational arithmetic; positions are finite numbers; counts in the header are less than `2^63`; texts and dates of the header, the blocks `YLST` (but for what it raises) and `TEXT` and the pixels of the white light image (`WHTL`) are left out; `map_metadata` is in `RenishawMeta`. The intensities are bit patterns of single-precision numbers, or means. The unit of a number that is not in `UnitType` is `0` (`str` of `DefaultEnum.Unknown`, Python 3.11).
* **RenishawMeta** (35 definitions). Model of `rsciio/renishaw/_api.py`, third part: date, title and quantity of the header, the metadata on laser, grating and detector, and the rectangle that shows the map in the white light image. Simplifications: the division `wt / 10` of NumPy with the rounding of `timedelta` to microseconds is a parameter (`micro`); times before 1601 are left out; the entries `extra_matches` that `_match_WXDM_values` makes are a parameter (see `Verif.Model.RenishawNested`); products of integers do not overflow; arrays are not taken as numbers. The result is the metadata after `_remove_none_from_dict`: an entry `None` is no entry. Of the white light image only the marker is modelled.
* **RenishawNested** (10 definitions). Model of the names that `rsciio/renishaw/_api.py` finds for the values of nested parts of the block `WXDM`: `_match_WXDM_values` (lines 698-719) and what `_map_WXDM` (lines 721-736) makes of it. The parts are given by what `_pset_match_keys_and_values` stored for them (lines 639-643): the identifiers in the order of the dictionary, and for each the keys and values without a partner. A value is of any type. Left out: the removal of keys from `_unmatched_WXDM_keys`, which is only used to clean up the entries of `UNMATCHED` (lines 717, 738-742); a name `subdicts`.
* **Rgb** (11 definitions). Model of `rsciio/utils/rgb.py`. An array is its shape and its elements in C order; making it contiguous (lines 129-133, 167-171) does not change either. Not modelled: `plot_friendly=True` (lines 142-144, floats).
* **Ripple** (37 definitions). Model of `rsciio/ripple/_api.py`. Floats are an abstract type with `float(text)` and `str(x)` as parameters; `int(text)` and `str(n)` likewise. `correct_INCA_format` (files whose first line contains a parenthesis) and the mapping of keys to axes and metadata are in `RippleFile`. Array elements are bit patterns of the item size.
* **RippleFile** (33 definitions). Model of calibrations and metadata in `rsciio/ripple/_api.py`: `file_writer` from a signal to the keys, `file_reader` from the keys to axes and metadata, and `correct_INCA_format`. The text of the header and the raw data are in `Ripple`. Floats are an abstract type, as in `Ripple`; `int(round(x))` is a parameter. `lower` is that of ASCII letters. The names of the files are left out. Keys of `rpl_info` given by the user are left out: the keys are those of a file.
* **Semper** (37 definitions). Model of `rsciio/semper/_api.py`. Floats are bit patterns of 4 bytes (rounding of a scale to 4 bytes is left out). Pixels are bit patterns of the item size. Lazy reading, `skip_header=True`, half-precision data (converted on the way) and the conversion of dates from and to text are left out; the text of the data range (lines 296-298) is a parameter.
* **Sfs** (31 definitions). Model of the container part of `rsciio/bruker/_api.py`: `SFSTreeItem` and `SFS_reader`. A container is the list of its bytes. Text decoding (UTF-8) is a parameter, and so is `unzip_block`. Simplified: `ceil(a / b)` on floats is exact (it is below 2^53); the conversion of the three times of an item (lines 99-101) always succeeds; the order of the checks within `struct.unpack` is left out.
* **SignalChunks** (7 definitions). Model of `get_signal_chunks`, `rsciio/_hierarchical.py` lines 91-157. The floating-point expression of lines 139-144 is the parameter `root s p k`, standing for `int(floor((s / p) ** (1 / k)))`. `target_size` (a float holding a whole number, `1e6` or `1e8`) is a `Nat`. `np.prod` is exact (no 64-bit overflow).
* **StoredModels** (11 definitions). Model of how signals and their models are stored in one hspy/zspy file: `HierarchicalWriter.write_signal` (`rsciio/_hierarchical.py` lines 821-876, the part that stores `data` and `models`) and `HierarchicalReader.read` (lines 208-278). `σ` is everything stored for a signal except its models, `μ` the content of one model. Writing a model under a name that is already used merges the two groups (`dict2group`, line 874); the result of merging is the parameter `merge`.
* **Tia** (53 definitions). Model of `rsciio/tia/_api.py`: `.ser` files as bytes (`load_ser_file`), the axes and data made of them (`ser_reader`, `load_only_data`), and the matching of `.ser` files and metadata of `.emi` files. Simplifications: a file that ends too early for a field is a `structError` (the code fails in several ways); the value of a 64-bit float is a parameter `f8` (a function of its bit pattern, no NaN). Elements of data are byte strings. The content of the XML is in `TiaMeta`; `get_axes_from_position` is left out: it is only reached for files without dimensions, and its first statement raises, because it looks for a field with a byte string as a name.
* **TiaMeta** (33 definitions). Model of the metadata of `.emi` files in `rsciio/tia/_api.py`: `emixml2dtb`, `parse_ExperimentalDescription`, `parse_TrueImageHeaderInfo`, `_guess_units_from_mode` and the mapping. An element is what the XML parser gives. External code as parameters: `float` of a text, and whether a text is XML. A box is a dictionary; keys with dots or brackets, which `Box` splits, are left out, and an empty label is the empty text. The mapping is applied by HyperSpy, for which blanks in names are underscores. `findall` with bytes as a name finds nothing, as names are texts. A `ParseError` is a `valueError`. Warnings and logging are left out.
* **Tiff** (105 definitions). Model of `rsciio/tiff/_api.py` (TIFF files, reading and writing). External is `tifffile`: a file is its flags, its pages and series with the values of the tags, the parsed metadata of ImageJ and FEI, and the numbers found at an address. Also external: `float` of a text, `polyfit` over 0, 1, 2, ..., `round` to 15 digits, `strptime` in two formats, the parser of the XML of JEOL, the square root in the wavelength of the electrons. Numbers are rationals and arithmetic on them is exact. Texts that `csv` splits have no escaped line breaks. Lazy reading gives the same values. Writing is modelled up to the arguments of `imwrite`; `stored` is what `tifffile` finds in a file written with them. The tables of the mapping are in `TiffMapping`. Not modelled: keywords for `tifffile`, warnings, log messages, the debug output of the tag `PhotometricInterpretation`.
* **TiffMapping** (23 definitions). Model of the tables in `rsciio/tiff/_api.py` that say where metadata of instruments are in the tags of a file and how they are converted (`get_metadata_mapping`; which table is used is in `Tiff`). HyperSpy applies a table: an entry whose source is in the original metadata gives its converted value, unless that is `None`. Simplifications: `float` and the parser of dates are parameters, as are the factors between units (`pint`) and the rounding of a number to seven digits (`"%.6e"`). Arithmetic is exact. Times of TVIPS are numbers.
* **Tofwerk** (51 definitions). Model of `rsciio/tofwerk/_reconstruction.py` and of the parts of `file_reader` and `available_signals` of `rsciio/tofwerk/_api.py` that select, order and align data. Simplifications: masses and limits are rational numbers (no NaN), counts are natural numbers (the code accumulates them as `float32`, exact up to 2^24). `np.argsort` is a parameter (its result for equal keys is not specified). Metadata, the pixel size, progress bars and the reading of HDF5 are left out.
* **TofwerkFile** (49 definitions). Model of the axes, shapes and metadata that `rsciio/tofwerk/_api.py` makes of a file, and of the numbers it gives to the reconstruction (`_reconstruction.py`). Of the arrays only the shapes are modelled here (their values in `Verif.Model.Tofwerk`). The attributes of the file are numbers and texts, absent or not; parsing of dates (`datetime.fromisoformat`, `strptime`) is a parameter. Quotients are exact. Of the digits of `\d` only those of ASCII; the columns of the peaks exist in the data; no NaN.
* **TofwerkMeta** (35 definitions). Model of the metadata and of the original metadata that `rsciio/tofwerk/_api.py` makes of the attributes of a file: `_build_metadata` (lines 375-502), `_build_original_metadata` (505-541), `_peak_table_to_list` (549-576), `_decode` (689-693) and `_decode_attr` (696-706). An attribute is one value or a flat array of values; a value is an integer, a number, bytes (given by their text, decoded as UTF-8) or a text. `float` and `int` of a text and `str` of numbers and arrays are parameters; `str` of bytes is given for texts without quotes and characters that are escaped. Quotients and means are exact. Date, time and range of masses are in `Verif.Model.TofwerkFile`; the title and the type of the signals there as well. A dictionary is the list of its entries, with the path as key.
* **Topspin** (40 definitions). Model of `rsciio/topspin/_api.py`. Simplifications: numbers are exact, `none` stands for `nan`; `float` and `int` of texts are parameters; XML texts are trees (`Xml.El`); the frames of a group are numbered from 0 without gaps and all have the shape of the first one; values are naturals of any type; time stamps and entries that are the same for all files (`FileIO`, `signal_type`) are left out, and so are `dryrun` and the progress bar.
* **Trivista** (27 definitions). Model of `rsciio/trivista/_api.py`, data and axes (spectra, line scans, maps and time series of TriVista, `.tvf`). The document is given with the attributes and texts the reader looks at. Numbers are exact rationals; `float(text)` is an external function. The fit of a uniform axis is the exact straight line of least squares. Not modelled: parsing XML, more than one `xDim`, `Data` or `Childs` element, time stamps that are not one whole number, messages.
* **TrivistaMeta** (52 definitions). Model of `rsciio/trivista/_api.py`, metadata. The groups and items of `InfoSerialized`, and the sections on hardware with the fields the reader looks at, are given as `XmlToDict` delivers them: several elements with one name as list, one element by itself. Numbers are exact rationals; `float(text)` is an external function, and so is the test for the package `lumispy`. Not modelled: parsing XML, sections that are missing in the part on hardware, groups without items, spectrometers named `Detector` or `Laser`. Names that occur several times are renamed in the order of the file, where the code takes the order of a set.
* **Tvips** (25 definitions). Model of `rsciio/tvips/_api.py`. A recording is a numbered list of files. Frame headers are byte lists of the right length given by a parameter (time stamps, stage positions etc. and the metadata are in `Model/TvipsMeta`); pixels are bytes. The `auto` scan shape and the axes are in `Model/TvipsScan`; lazy loading is left out.
* **TvipsMeta** (20 definitions). Model of the calibrations and metadata in `rsciio/tvips/_api.py`: what the writer puts into the main header and the headers of frames, and what the reader makes of them. The bytes are in `Tvips`, the axes in `TvipsScan`. Simplifications: `pint` is a parameter (which units are lengths and inverse lengths, and factors); floating-point arithmetic is exact, the rounding to single precision is a parameter; the start of the recording is a number of seconds since 1970 (UTC), parsed by `dateutil`; the local time zone is a parameter. A number that does not fit into an unsigned integer of 32 bits raises (integers do, for floating-point numbers the result is not defined). Metadata that are missing are 0, as in the code.
* **TvipsNames** (13 definitions). Model of the names of the files of a recording in `rsciio/tvips/_api.py`: which files `file_writer` writes, which names `file_reader` accepts, and which files it reads. What is in the files is in `Model/Tvips`. A folder is a list of names (texts) with contents. The regular expression is a search for the last place where it matches, as its first part is greedy; of the digits only those of ASCII match `[0-9]`, and `.` matches everything but the end of a line. `str.lower` is that of ASCII.
* **TvipsScan** (13 definitions). Model of the reconstruction of scans from the rotator indices in `rsciio/tvips/_api.py` (`scan_shape="auto"`), and of the axes of scans and stacks. Simplifications: rotator indices are numbers below 2³²; the arithmetic of the code on them is that of `uint32` in NumPy 2 (differences wrap around); `numba` is not modelled. Time stamps are exact seconds.
* **Unpickle** (16 definitions). Model of `rsciio/pantarhei/_restricted_unpickling.py`: the pickle machine of the standard library (`pickle.Unpickler`) with `find_class` of the restricted unpickler. Simplifications: a pickle is a list of instructions (the byte codes are not modelled; different byte codes for the same step are one instruction); objects are immutable trees; what a callable or a method does is a parameter (`World`), and so is the registry of extension codes, whose cache is empty; `fix_imports` renames none of the listed names; what a persistent identifier or a buffer of another process stands for is not available, as in `pickle.Unpickler`.
* **Usid** (45 definitions). Model of `rsciio/usid/_api.py` (USID files in HDF5, reading and writing). External is `pyUSID` with `sidpy`: a file is the list of its main datasets in the order of `get_all_main`, each with the labels, units and values of its dimensions, and its N-dimensional form (`reshape_to_n_dims`) with the labels of that form. `get_slope` is a parameter. What the library writes: a main dataset with the given dimensions, in an order of its own in the tables of the file (parameter `arrange`) and in the given order in the N-dimensional form; the new groups carry attributes of the library (`stamp`); sizes that do not match are a `ValueError` (`validate_dims_against_main`). Values are rationals and the values of the dimensions are computed exactly. Lazy reading gives the same values. Not modelled: warnings and log messages, arguments that are no text, the keywords of the writer, the types of the elements, HDF5 errors.
* **Xml** (31 definitions). Model of `rsciio/utils/xml.py`. Simplifications: the XML parser (`xml.etree`) is not modelled, an element is what the parser gives; bytes are written as characters; `ast.literal_eval` is a parameter `lit` (an error `valueError` stands for `ValueError` and `SyntaxError`, other errors are not caught); for `xml2dtb`, the model of `DTBox` of `Model/Dictionary` is used, and names of attributes have no dots.

## What is not modelled

Whole modules of the package without any model: `_io_plugins`/`__init__` plumbing and the
modules of formats that are not listed above. Of the formats that are listed, everything the
paragraph on the model names as left out, and in addition:

* the mapping of file metadata to HyperSpy metadata (`mapped_parameters` and the like), except
  where a property names it;
* logging, warnings, progress bars, plotting;
* dask scheduling: a lazy array is the array that its blocks make up;
* rounding of floating-point numbers: they are exact rationals or opaque bit patterns;
* the file system beyond "file X exists / contains these bytes".


## Where the code and the stated property disagree

Every entry is a theorem with a concrete (or general) witness in the model; the property itself is kept, and the theorem ending in `_partial` says for which inputs it holds.

* **C07** Arbitrary scan positions place each frame where it was recorded
  * `Distributed.C07_fails_for_single_position_chunks`: C07 does not hold for every chunking: a chunk with one position raises `TypeError` (`-1 in slices_` on a scalar), and a chunk of length one along one axis yields a block with an axis missing.
* **C11** Dumping a dictionary lists every leaf once with the requested separators
  * `Dictionary.C11_fails_custom_separators`: C11 is false for other separators: below the first level the defaults are used.
* **C13** An existing file is overwritten only after an explicit yes
  * `Path.C13_fails_upper_case_at_second_prompt`: `Y` is an accepted answer at the first prompt, but not after a refused answer: the user is asked again, and the file is kept although the only valid answer was yes.
* **C14** Serial dates convert back to the same second
  * `DateTime.C14_fails_before_origin`: C14 is false before the origin: noon of 1899-12-29 comes back as noon of 1899-12-30.
* **C51** Deprecated keyword arguments keep working
  * `Deprecated.C51_fails_replacement_without_removal`: C51 is false for a keyword with a replacement and no announced removal version: every call that uses it raises `KeyError` instead of using the replacement.
* **C17** Ragged data survive flattening
  * `Ragged.C17_fails_empty_text_cell`: C17 is false in zspy for an empty array of strings: it comes back as a float array.
  * `Ragged.C17_fails_mixed_types`: Cells of another numeric type are cast to the type of the first cell and come back with that type: values are lost.
* **C19** Chunk shapes for saving are always valid
  * `SignalChunks.C19_fails_empty_signal`: C19 is false when the signal is empty: `OverflowError`.
  * `SignalChunks.C19_fails_empty_navigation`: C19 is false when a navigation axis is empty: the chunk shape contains a zero.
* **C20** Every stored model is returned with the signal it was stored for
  * `StoredModels.C20_fails_two_signals_with_models`: C20 is false for two signals with models: the second write claims the models of the first.
* **C18** Metadata survive writing to and reading from a hierarchical file
  * `HierDict.C18_fails_long_lists`: C18 is false for a list of eleven elements that are not all of one kind: the elements are read in the order of their keys as texts, `"10"` before `"2"`.
  * `HierDict.C18_fails_text_none`: C18 is false for the text `_None_`: it comes back as `None`.
  * `HierDict.C18_fails_mixed_lists`: C18 is false for lists mixing texts and numbers, or kinds of numbers: the elements come back as texts, or as the widest kind.
  * `HierDict.C18_fails_large_integers`: C18 is false for integers beyond 64 bits: the item is dropped (with a log message).
  * `HierDict.C18_fails_nul_character`: C18 is false for texts with a NUL character: writing fails (hspy).
  * `HierDict.C18_fails_bytes`: C18 is false for byte strings without a NUL byte: they come back as text.
  * `HierDict.C18_fails_reserved_keys`: C18 is false for keys with a reserved prefix, and two keys may collide: a list under `2_k` and a list of two different things under `k` (`TypeError`).
* **C22** Blockfile frames survive a write and read
  * `Blockfile.C22_fails_big_endian`: The header fields are always written little-endian: a file written with `endianness=">"` is not read back by `endianness=">"`.
* **C23** Blockfile notes survive a write and read
  * `Blockfile.C23_fails_non_ascii`: Notes are written as UTF-8 and read as Latin-1.
  * `Blockfile.C23_fails_long_non_ascii`: A note whose encoded form is longer than the space although its characters are not makes writing fail.
* **C24** Lazy and in-memory blockfile loading agree
  * `Blockfile.C24_fails_single_line`: For a scan of one line the two ways of loading give different shapes, and in memory the axes are those of the wrong dimensions: the second frame axis is lost and the first is a navigation axis.
  * `Blockfile.C24_fails_truncated`: An incomplete file is padded with zeros in memory and refused lazily.
* **C25** EMSA/MSA headers survive a write and read
  * `Msa.C25_fails_colon`: A colon followed by a space: the keyword is lost.
  * `Msa.C25_fails_colon_dashes`: With two dashes after it, the whole file can no longer be read.
  * `Msa.C25_fails_space_at_64`: Long titles are cut into pieces of 64 characters, and a space at the end of a piece is lost.
  * `Msa.C25_fails_non_latin`: Characters outside Latin-1 are dropped.
  * `Msa.C25_fails_none`: `None` comes back as text.
  * `Msa.C25_fails_unknown_number`: A number under a keyword that is not in the table comes back as text.
* **C26** Reading and writing .msa files has no memory
  * `Msa.C26_fails_second_write`: Writing a signal that comes from an .msa file removes entries from its original metadata, and writing it a second time gives a file without its owner.
  * `Msa.C26_fails_after_sem`: After an SEM signal has been written, the beam energy of any file is put under `SEM`.
* **C27** Ripple header files survive a write and read
  * `Ripple.C27_fails_semicolon`: A semicolon in a title cuts it.
  * `Ripple.C27_fails_tab`: A tab in a title cuts it.
  * `Ripple.C27_fails_newline`: A second line in a title makes the file unreadable.
  * `Ripple.C27_fails_misspelling`: A correction meant for the keys of another program changes titles.
  * `Ripple.C27_fails_dont_care_depth`: Not rejected although inconsistent: a `dont-care` record, i.e. a single image, with a depth. The data then have the shape of one image while the axes are those of a stack.
* **C28** Ripple raw data survive a write and read
  * `Ripple.C28_fails_int16`: Not every integer type can be written.
  * `Ripple.C28_fails_single_channel`: Spectra of a single channel are written as `vector` records of depth 1, which are refused when reading.
* **C29** TVIPS writer stores every frame once and in order, within the size limit
  * `Tvips.C29_fails_version_1`: Files written in version 1 are refused when reading: the reader takes the frame header to be 12 bytes long and finds that too short.
  * `Tvips.C29_fails_single_image`: A single image (no navigation axis) cannot be written.
  * `Tvips.C29_fails_one_frame`: A recording of one frame is written but cannot be read as a stack.
* **C30** TVIPS winding and hysteresis corrections only reorder frames
  * `Tvips.C30_fails_snake_y`: The correction along y does not undo a scan whose fast direction is y: the frames are still taken line by line.
* **C31** Re-saving a TVIPS recording returns only the new recording
  * `Tvips.C31_fails_shorter_recording`: After a long recording a short one: reading returns frames of both.
* **C32** Semper image sizes and labels survive a write and read
  * `Semper.C32_fails_no_title`: A signal without a title cannot be written.
  * `Semper.C32_fails_non_ascii`: The title "é" is written but the file cannot be read.
  * `Semper.C32_fails_large`: Sizes of 32768 and more cannot be written, whatever else the image holds.
  * `Semper.C32_fails_long_title`: Titles longer than 144 characters cannot be written.
  * `Semper.C32_fails_long_range`: The text of the range of complex data may be too long: the data cannot be written.
* **C33** Semper pixel rows survive a write and read
  * `Semper.C33_fails_big_endian`: Big-endian integer arrays are written as they are, and read with the bytes swapped.
* **C34** Semper axis units survive a write and read
  * `Semper.C34_fails_other_unit`: All axes get the unit of the first.
  * `Semper.C34_fails_no_unit`: No unit becomes an empty unit.
  * `Semper.C34_fails_long_unit`: A unit of five characters prevents writing.
  * `Semper.C34_fails_length_one`: With an axis of length one the others get its scale and offset.
* **C35** Virtual image names are unique and match their files
  * `Mrc.C35_fails_unsorted_listing`: With another order of the directory names go to other files: the image "CentroidAmp" is called "BF".
  * `Mrc.C35_fails_virtual_external`: A virtual and an external image may have the same name; then the former is lost from the navigators.
* **C36** Direct Electron calibrations are kept
  * `Mrc.C36_fails_scan`: A pixel size of 10 nm becomes 1.
  * `Mrc.C36_fails_time_without_delay`: A scan file giving a time but no delay cannot be read.
  * `Mrc.C36_fails_movie`: In a movie a given pixel size is returned as text, and -1 stays.
* **C54** MRC axes describe the dimensions they belong to
  * `Mrc.C54_fails_inner_length_one`: A stack of lines (height one): the stack gets the scale of the height.
  * `Mrc.C54_fails_single_frame`: A Direct Electron movie of one frame has three axes for an array of two dimensions.
* **C37** Merlin navigation shapes never read past the end of the file
  * `QuantumDetector.C37_fails_interrupted_range`: With `last_frame=3` of an interrupted acquisition more frames are loaded than asked for.
  * `QuantumDetector.C37_fails_reversed_range`: An empty range (first after last) is an error instead of no frames.
* **C38** Loading .mib data from memory equals loading it from disk
  * `QuantumDetector.C38_fails_first_frame`: From the second frame on: the first frames are loaded from a buffer.
  * `QuantumDetector.C38_fails_quad`: Data of four chips cannot be loaded from a buffer.
* **C39** All frame headers are parsed when all are asked for
  * `QuantumDetector.C39_fails_all`: With -1 the last header is left out, always.
  * `QuantumDetector.C39_fails_count`: All headers are not parsed, of any non-empty list.
* **C40** DigitalMicrograph tag trees are decoded completely
  * `DigitalMicrograph.C40_fails_names`: C40 fails when names become equal: `A` and `A.` are one entry, the first value is lost.
  * `DigitalMicrograph.C40_fails_numbered`: C40 fails for unnamed tags beside a tag that has the name given to them.
  * `DigitalMicrograph.C40_fails_arrays`: C40 fails for arrays of arrays: only the first values are read, and the parser goes on in the middle of the array. Here the file, with an array of two arrays and another tag, cannot be read.
* **C41** Skipping DigitalMicrograph arrays does not change the rest of the tree
  * `DigitalMicrograph.C41_fails_string`: C41 fails for a skipped string: the recorded number of bytes is 0.
  * `DigitalMicrograph.C41_fails_strings`: C41 fails for a skipped array of strings: only the first string is skipped.
* **C42** Packed complex images are unpacked to Hermitian images
  * `DMImage.C42_fails_new`: C42 fails for the new packed format: the rows are not mirrored, so the image is in general not Hermitian; here the stored half (only the middle column is not zero) is that of a Hermitian image.
* **C43** JEOL frame boundaries are found consistently
  * `Jeol.C43_fails_lazy`: C43 fails for lazy loading: the first word of the next frame is counted with the frame before.
* **C44** JEOL lazy and in-memory loading agree
  * `Jeol.C44_fails_tall`: C44 fails for maps higher than wide: rows from the width on are lost.
  * `Jeol.C44_fails_downsampled`: C44 fails when rows are downsampled: a complete frame is not accepted lazily, because its last row must be exactly the first of the last group.
  * `Jeol.C44_fails_second`: C44 fails for the second frame: lazy loading starts it one word late, without its first row.
* **C45** JEOL counts never overflow silently and incomplete frames leave no trace
  * `Jeol.C45_fails_lazy_image`: C45 fails for the S(T)EM image of lazy loading: an incomplete frame that is rejected is added a second time instead of being taken back.
* **C55** JEOL S(T)EM images have room for every pixel
  * `Jeol.C55_fails_tall`: C55 fails for other maps: a map of 2 columns and 4 rows has an image array of 2 rows, and the image word of its last row is outside.
* **C46** JEOL parameter trees are decoded completely
  * `JeolTree.C46_fails_same_name`: Violation: of two entries with the same name only the later one is returned.
  * `JeolTree.C46_fails_below_value`: Violation: entries below a value are an error.
  * `JeolTree.C46_fails_limits`: Violation: what is below limits is returned beside them.
  * `JeolTree.C46_fails_empty_name`: Violation: an empty name is an error.
  * `JeolTree.C46_fails_silently`: Violation: a byte that is neither 1 nor -1 within the tree ends it without an error; what follows is lost.
  * `JeolTree.C46_fails_odd_length`: Violation: numbers whose length is not a multiple of their size are read partially, and the rest is taken for the next mark.
* **C47** Any byte range of a file inside a Bruker container is read exactly
  * `Sfs.C47_fails_empty`: Violation: an empty file cannot be read.
  * `Sfs.C47_fails_at_end`: Violation: nothing cannot be read at the end of a file whose chunks are full.
  * `Sfs.C47_fails_unaligned`: Violation: if the size of the chunks is no multiple of 4 and the table takes more than one chunk, its numbers are read from wrong places.
* **C48** Every file of a Bruker container is reachable under its path
  * `Sfs.C48_fails_order`: Violation: a file is not found if a directory above it is listed after it.
  * `Sfs.C48_fails_order_ex`: For example a file that is listed before its directory.
  * `Sfs.C48_fails_many`: Violation: the chunks of the table are counted from its bytes, although only whole records are stored in a chunk. If there are more chunks than that, the container cannot be opened.
  * `Sfs.C48_fails_cycle`: Violation: a directory that is its own parent is not reported; the loop never ends.
  * `Sfs.C48_fails_first_empty`: Violation: if the first file is empty, the container cannot be opened, whatever follows.
  * `Sfs.C48_fails_no_files`: Violation: a container without files cannot be opened.
* **C49** The compiled and pure-Python Bruker decoders agree
  * `Hypermap.C49_fails_last_channel`: C49 fails: the Python decoder makes spectra one channel too short; if there is no pulse in the last channel it fails, or, if there are two channels, repeats the first.
  * `Hypermap.C49_fails_beyond`: C49 fails: pulses beyond the number of channels of the pixel are ignored by the Python decoder only.
  * `Hypermap.C49_fails_twice`: C49 fails: if a pixel is stored twice the Python decoder keeps the second spectrum, the compiled one the sum.
  * `Hypermap.C49_fails_wide`: C49 fails: the compiled decoder takes values of 4 bytes from every second byte (`i * 2` for `i * 4`).
  * `Hypermap.C49_fails_size`: C49 fails: the size of packed data is a number of 16 bits in the compiled decoder, so the counts of a pixel with 65536 bytes of packed data are left out.
* **C50** Decoding a Bruker map does not depend on how the file is cut into blocks
  * `Hypermap.C50_fails_exact`: C50 fails: the Python decoder asks for a block after the last one if the last block is full and used up; cut at another place the same stream is read.
  * `Hypermap.C50_fails_small_blocks`: C50 fails: only one block is fetched at a time, so pixels longer than that are not read completely: the compiled decoder reads beyond its buffer (here an error), the Python decoder counts some of the pulses only and then stops. In larger blocks the same stream is read.
* **C56** The number type chosen for a Bruker map holds its counts
  * `Hypermap.C56_fails_hot`: C56 fails: the estimate is the mean of the pixels, doubled. The counts of a single bright pixel do not fit, and wrap round without a warning.
  * `Hypermap.C56_fails_signed`: C56 fails: signed types are chosen as if they held 0xEF, 0xEFFF and 0xEFFFFFFF; they are too small even for the estimate.
* **C52** Panta Rhei files read back the calibration and axis order written
  * `Pantarhei.C52_fails_calibration`: C52 fails: the calibration is written to one entry (`inherited.calib`) and read from another (`device.calib`): no axis of a new signal is calibrated after reading, with or without metadata.
  * `Pantarhei.C52_fails_spectrum_image`: C52 fails: a spectrum image with axes `y`, `x` and `Energy` comes back with the energy first.
  * `Pantarhei.C52_fails_scan`: C52 fails: maps with axes `ScanY` and `ScanX` come back transposed.
  * `Pantarhei.C52_fails_eels`: C52 fails: EELS spectra come back reversed.
  * `Pantarhei.C52_fails_one_spectrum`: C52 fails: a single spectrum, or a spectrum image with three navigation axes, is written but cannot be read.
  * `Pantarhei.C52_fails_length_one`: C52 fails: images with an axis of length one are written but cannot be read, not even without metadata.
* **C53** Lazy and in-memory loading of .prz files agree
  * `Pantarhei.C53_fails_written`: C53 fails: the writer compresses the archive. The offset does not take this into account: with a stored block the values are shifted by five bytes.
  * `Pantarhei.C53_fails_compressed`: C53 fails: compressed files that are smaller than the data cannot be loaded lazily.
  * `Pantarhei.C53_fails_fortran`: C53 fails: arrays stored in Fortran order are mapped in C order.
* **C57** Panta Rhei axes describe the dimension they belong to
  * `Pantarhei.C57_fails_lists`: C57 fails for the lists of the metadata: if a dimension of length one that is not the last of the file is removed, the entry of another dimension is dropped. Here the size of the scan is lost.
* **C58** Tofwerk peak reconstruction counts every ion in the window it falls into
  * `Tofwerk.C58_fails_overlap`: C58 fails for overlapping windows: the ion of mass 3 is in both windows and is counted in the second, and the ion of mass 5 is in the wide window and is not counted at all.
* **C59** Tofwerk peak reconstruction does not depend on numba
  * `Tofwerk.C59_fails_no_peaks`: C59 fails without peaks.
  * `Tofwerk.C59_fails_clock`: C59 fails if the clock ratio is zero (it is rounded from the ratio of two periods).
* **C60** Tofwerk peak data match their mass axis
  * `TofwerkData.C60_fails_metadata`: C60 fails for the peak table of the metadata: it is not restricted to the range, and not in the order of the axis.
  * `TofwerkData.C60_fails_batch`: C60 fails for a batch size of zero, which is accepted for lazy reading and for a range, and is a `ValueError` of `range` otherwise.
* **C61** The Tofwerk sum spectrum has an increasing mass axis aligned with its data
  * `TofwerkSum.C61_fails_bump`: C61 fails if the masses fall after they rose.
  * `TofwerkSum.C61_fails_negative`: C61 fails if the masses fall below zero: the axis begins with a negative mass.
* **C62** A Tofwerk depth range selects the same slices of all signals
  * `TofwerkSum.C62_fails_shapes`: C62 fails for images of several shapes: the image of another shape is removed before the range is applied, so the images are not those of the depth slices 1 and 2.
* **C63** The signals listed for a Tofwerk file are the signals that can be read
  * `TofwerkSum.C63_fails_lazy`: C63 fails for lazy reading of a file without peak data: "all" is refused because of a signal that was not asked for by name.
  * `TofwerkSum.C63_fails_range`: C63 fails for a mass range without peaks: the requested signal is missing from the result.
* **C64** Each element of a TIA .ser file is read from its own offset
  * `Tia.C64_fails_end`: C64 fails for a file that ends with the offset of its last element: the element is not read, and the array is left as `np.empty` made it.
* **C65** TIA scans have the shape, order and data of the acquisition
  * `Tia.C65_fails_line`: C65 fails for a line of images with x as fast direction: the size of the wrong dimension is compared with one, and the dimension with five images is left out.
  * `Tia.C65_fails_no_dimension`: C65 fails for a file without dimensions: the reader raises for all of them.
  * `Tia.C65_fails_three_dimensions`: C65 fails for scans in three dimensions: there are only two names.
  * `Tia.C65_fails_too_many`: C65 fails for a series with one dimension that was stopped before `total` positions were visited, if there are more elements than positions: `valid` is trusted.
* **C66** TIA axes are calibrated as in the file
  * `Tia.C66_fails_offset`: C66 fails for offsets: they are left in metres, while the scale is in nanometres.
  * `Tia.C66_fails_element`: C66 fails for spectra whose calibration is given for another channel than the first one.
  * `Tia.C66_fails_mirror`: C66 fails for images with respect to y: the rows are flipped, but the axis is not, so that the value in row 0 of the result, which is row 1 of the file, is said to be at the position of row 0 of the file.
* **C67** Each .ser file of a TIA .emi file gets its own metadata
  * `Tia.C67_fails_first`: C67 fails for a file that begins with an object: it is not found.
  * `Tia.C67_fails_end`: C67 fails without an end tag: the object is cut off at position 12 of the file, which gives an empty text.
  * `Tia.C67_fails_ten`: C67 fails from the tenth file on: it is not read.
  * `Tia.C67_fails_zero`: C67 fails for number 0: it gets the metadata of the last object.
  * `Tia.C67_fails_date`: C67 fails for the date and the units of images: they are taken from the first object for all files.
  * `Tia.C67_fails_no_object`: C67 fails for `.emi` files without objects: the data, which do not need them, are not read.
* **C68** Digital Surf headers and points come back as written
  * `Digitalsurf.C68_fails_private`: C68 fails. The private zone `b"abc"` is written as text with `b'`, and cut: `b'a` comes back.
* **C69** Digital Surf data survive normalisation to integers
  * `Digitalsurf.C69_fails_large`: C69 fails. Integers beyond `2 ^ 24` in a spectrum are shifted: their minimum is stored in single precision.
  * `Digitalsurf.C69_fails_constant`: C69 fails. A surface of floating-point zeros comes back with whatever the conversion of NaN to a 32-bit integer gives (`junk`).
  * `Digitalsurf.C69_fails_single`: C69 fails. With arithmetic of single precision (data of type `float32`) the maximum does not fit into the 32-bit integer and comes back as the minimum.
  * `Digitalsurf.C69_fails_missing`: C69 fails. Without `is_special` a missing value becomes a number.
  * `Digitalsurf.C69_fails_span`: C69 fails. A surface of floating-point numbers whose span makes the scale a whole number comes back as the raw numbers of the file.
* **C70** Each kind of signal comes back from a Digital Surf file
  * `Digitalsurf.C70_fails_one_spectrum`: C70 fails. A series of one spectrum loses an axis.
  * `Digitalsurf.C70_fails_one_channel`: C70 fails. Spectra of one channel: the data lose a dimension, the axes do not.
  * `Digitalsurf.C70_fails_order`: C70 fails. Spectra with the channels along the first axis: the axes are exchanged, the data are not.
  * `Digitalsurf.C70_fails_rgb16`: C70 fails. Values above 32767 of a series of 16-bit images become negative.
  * `Digitalsurf.C70_fails_step`: C70 fails. A step of zero along the axis of a series comes back as one.
* **C71** Original metadata of a Digital Surf file list each object's own header
  * `Digitalsurf.C71_fails_zero`: C71 fails. A file without a number of objects (0) has one object and no original metadata.
* **C72** Metadata survive the comment of a Digital Surf file
  * `DigitalsurfComment.C72_fails_words`: C72 fails. A text of two words is cut, and its second word becomes the units; a third is lost.
  * `DigitalsurfComment.C72_fails_equals`: C72 fails. A text is cut at an equals sign.
  * `DigitalsurfComment.C72_fails_number`: C72 fails. A text of digits becomes a number.
  * `DigitalsurfComment.C72_fails_list`: C72 fails. A list is written with spaces and comes back as the text `[1,` with the units `2]`.
  * `DigitalsurfComment.C72_fails_nested`: C72 fails. A section within a section ends the outer one: what follows it in the outer section is moved to the inner one.
  * `DigitalsurfComment.C72_fails_beside`: C72 fails. A value beside the sections is moved to the section before it.
  * `DigitalsurfComment.C72_fails_units`: C72 fails. The units are searched in all that is left: a section whose title is the name of units is removed.
  * `DigitalsurfComment.C72_fails_underscore`: C72 fails. A key that begins with an underscore becomes a title.
* **C73** Values of Quadstar analog scans are complete
  * `Quadstar.C73_fails_range`: A full scale above `10^308` cannot be read.
* **C74** Times and masses of Quadstar analog scans
  * `Quadstar.C74_fails_uniform`: Cycles at 0, 1 and 10 seconds: on the uniform axis the second cycle is at 5 seconds, and nothing tells the user.
  * `Quadstar.C74_fails_backwards`: When the clock is set back during the measurement, the uniform axis has a step of one second.
* **C75** Quadstar bargraph files
  * `Quadstar.C75_fails_labels`: The labels of an `.sbc` file are masses of peaks; they are not equidistant, but the axis is uniform, with and without `use_uniform_signal_axis`: mass 2 is at 5 on the axis (and in the second cycle mass 4).
  * `Quadstar.C75_fails_trailing`: The data are counted from the end of the file: with further bytes at the end, all values are wrong, and nothing tells the user.
* **C76** Dates and texts of Quadstar files
  * `Quadstar.C76_fails_null`: Bytes after the null byte that ends a title are part of the name of the axis.
* **C77** Blocks of Renishaw files
  * `Renishaw.C77_fails_zero`: C77 fails: when the size of a block is stored as 0, the search for blocks never ends.
  * `Renishaw.C77_fails_trailing`: C77 fails: one to fifteen more characters at the end of the file make the reader raise an `IndexError`; the code means to warn ("Missing characters at the end of the file") and to go on, but waits for an `EOFError`.
* **C78** Metadata blocks of Renishaw files
  * `Renishaw.C78_fails_array`: C78 fails: an array with one number is read as a number.
  * `Renishaw.C78_fails_flag`: C78 fails: an entry with a flag that is not known is read as if it had none; the code means to leave out the block with an error message.
  * `Renishaw.C78_fails_wxdm`: C78 fails: a file with a block `WXDM` in which every name has a value and every value a name cannot be read.
* **C79** Spectra of Renishaw files are at their places
  * `Renishaw.C79_fails_snake`: C79 fails: a map that was measured to and fro (`MapType.alternating`): the spectra of every other row are in the wrong order. A spectrum recorded at x = 2 is at the point of the map with x = 1.
  * `Renishaw.C79_fails_line_unfinished`: C79 fails: an unfinished measurement along a line cannot be read; the points on the axis are the planned ones.
  * `Renishaw.C79_fails_two`: C79 fails: a series in which two quantities X and Y are changed at the same time cannot be read: each of both axes gets as many points as there are spectra.
  * `Renishaw.C79_fails_point`: C79 fails: spectra of one point cannot be read.
* **C80** Axes of Renishaw files are calibrated
  * `Renishaw.C80_fails_uneven`: C80 fails: the steps of a series that are not equal. The second spectrum, recorded at 1.5, is at 2.5 on the axis.
  * `Renishaw.C80_fails_return`: C80 fails: a quantity that comes back to its first value gets an axis of numbers 0, 1, 2 without a unit ("is invariant").
  * `Renishaw.C80_fails_time`: C80 fails: times are recorded as Windows file times, in steps of 100 ns, but the axis has the unit "ns". Ten million steps are a second; on the axis they are 10^7 ns.
  * `Renishaw.C80_fails_one`: C80 fails: the scale of the axis of a series with one spectrum is not a number.
  * `Renishaw.C80_fails_note`: C80 fails: a series whose annotation cannot be decoded (here in Latin 1, with the degree sign) cannot be read: the annotation is left out with a message, and then the code deletes it.
* **C81** Only commas of numbers in XML are replaced
  * `Xml.C81_fails_plus`: The full claim would be: the commas of all numbers are replaced. A number with a plus sign in its exponent (as Windows writes them: `1,5E+07`) keeps its comma.
  * `Xml.C81_fails_list`: The full claim would be: only commas of numbers are replaced. A list of two whole numbers becomes one number.
  * `Xml.C81_fails_attribute`: The full claim would be: the commas of all numbers of the document are replaced. Numbers in attributes keep their commas.
* **C82** Dictionaries of XML elements hold the whole document
  * `Xml.C82_fails_twice`: The full claim would be: the value of a child is that of the element on its own. A text that is alone is evaluated twice: the text `'12'` is the text 12 on its own, and the number 12 as a child.
  * `Xml.C82_fails_empty`: The full claim would be: any document is read. An empty element that is left out raises an AttributeError.
  * `Xml.C82_fails_tails`: The full claim would be: all texts between children are kept in the modes "cat" and "list". Without a text before the first child, they are lost.
  * `Xml.C82_fails_prefix`: The full claim would be: no child is lost. With an empty prefix (as for TriVista), an attribute replaces the child of the same name.
  * `Xml.C82_fails_type`: The full claim would be: any text is kept as it is if it is no literal. `literal_eval` of `{[]: 1}` raises a TypeError, which is not caught.
* **C83** Boxes of XML elements hold all texts and attributes
  * `Xml.C83_fails_indented`: The full claim would be: all texts of the document are kept. With line breaks between the elements, all children are lost.
  * `Xml.C83_fails_attributes`: The full claim would be: all attributes are kept. Those of an element with a text are lost.
  * `Xml.C83_fails_repeated`: The full claim would be: all texts are kept. Of children of the same tag, only the last one is kept.
  * `Xml.C83_fails_error`: The full claim would be: any document is read. A child with children, after a child of the same tag with a text, raises an AttributeError.
* **C84** Comments of Hamamatsu files are read whole
  * `Hamamatsu.C84_fails_bracket`: A value with an opening bracket cannot be read, even between quotation marks: the comment is divided at every bracket.
  * `Hamamatsu.C84_fails_equals`: An equality sign within a value is counted as an entry; a plain value at the end is then not recognised as the last one.
  * `Hamamatsu.C84_fails_empty`: An empty plain value at the end of a section cannot be read.
* **C85** Pixels of Hamamatsu images keep their place, wavelength and time
  * `Hamamatsu.C85_fails_column`: An image of one column with a calibration cannot be read: the table of one value is not an array.
  * `Hamamatsu.C85_fails_long`: The length of the comment is taken as a number with sign: a file with a comment of 32768 to 65535 characters, which the two bytes can hold, cannot be read.
  * `Hamamatsu.C85_fails_wide`: A width of 32768 or more is taken as negative.
* **C86** Metadata of Hamamatsu files say what the comment says
  * `Hamamatsu.C86_fails_unit`: Microseconds are taken as seconds: 3 exposures of 500 µs give an integration time of 1500 seconds.
  * `Hamamatsu.C86_fails_frames`: A file which tells the time of an exposure, but not the number of exposures, cannot be read: `None` is multiplied.
  * `Hamamatsu.C86_fails_mode`: A file without a mode of acquisition cannot be read.
  * `Hamamatsu.C86_fails_date`: A date without leading zeros does not become a date of ISO 8601.
  * `Hamamatsu.C86_fails_title`: The title of a file whose name has a full stop loses all that follows it, not only the extension.
  * `Hamamatsu.C86_fails_blaze`: A blaze of `0` (no blaze known) is meant to be left out, but it is compared as a text with a number; it stays.
* **C88** Axes of EMPAD files are calibrated
  * `Empad.C88_fails_name`: A raw file whose name does not begin with `scan_` passes the check of the scan parameters, and the reader stops with a `KeyError` instead of the message that the file is not supported.
  * `Empad.C88_fails_dot`: A dot anywhere in the name of the raw file cuts the scan off.
  * `Empad.C88_fails_date`: A time stamp without a time makes the file unreadable.
* **C89** Frames of TopSpin scans keep their position
  * `Topspin.C89_fails_column`: For a scan of one column the numbers of the dimensions of the pattern are exchanged: `ky`, with 3 values, is said to be the last dimension, which has 5 values.
  * `Topspin.C89_fails_upwards`: Rows that are scanned upwards (`y` at 2, 1 and 0 metres): the step between rows is the extent of the whole scan, and the first row of the image is said to be at the lower end.
  * `Topspin.C89_fails_columns`: A scan column by column of 2 × 2 positions is taken for one column of four frames.
  * `Topspin.C89_fails_snake`: A scan whose rows alternate in direction: the axes are right, but the frame taken at (1, 1) is found at column 0 of row 1.
  * `Topspin.C89_fails_image`: The calibration of an image in `X` is given to the axis `y`.
* **C90** Metadata and datasets of TopSpin files
  * `Topspin.C90_fails_boolean`: In a record, the Boolean value `False` becomes true; for an item, Boolean values stay texts.
  * `Topspin.C90_fails_nested`: A record in a record is not a nested dictionary: its entries are those of the outer one, and entries of the same name are lost (here the offset of `X`).
  * `Topspin.C90_fails_empty`: An empty text becomes the text `None`.
  * `Topspin.C90_fails_afternoon`: Three in the afternoon and three in the night are the same time, and the date is not an ISO date.
* **C92** DENS heater logs: temperatures at the times they were measured
  * `Dens.C92_fails_blank`: A file without any text is neither read nor rejected: the reader never ends.
  * `Dens.C92_fails_single`: A log of a single measurement cannot be read.
  * `Dens.C92_fails_pause`: A pause of a day or more is lost: without the bound on the pauses the times are not those of the measurements.
* **C93** Columns of Protochips logs keep their values and their names
  * `Protochips.C93_fails_user`: Without the line of the user, the first measurement is lost: the signals hold the other rows only.
  * `Protochips.C93_fails_comma`: A value with a comma, such as the name of a user, is cut at the comma.
  * `Protochips.C93_fails_offset`: The time of the first measurement is not used: the axis starts at 0.
  * `Protochips.C93_fails_short`: A log of three measurements is rejected.
  * `Protochips.C93_fails_name`: A name of a column with another character than letters, digits and spaces cannot be read, although the file is a valid table.
  * `Protochips.C93_fails_order`: Files with the notes in the last column pass the check of the names of the columns, but are rejected later.
* **C94** Columns of Impulse logs keep their values and their names
  * `Impulse.C94_fails_nofile`: Without the metadata file, nothing is read, although the code only warns about it.
  * `Impulse.C94_fails_offset`: The time of the first measurement is not used: the axis starts at 0.
  * `Impulse.C94_fails_comma`: A value with a comma in the metadata file is cut at the comma.
  * `Impulse.C94_fails_blank`: A blank line in the metadata file is an error.
  * `Impulse.C94_fails_valve`: Beyond 7, two positions of the valve have the same number.
  * `Impulse.C94_fails_names`: Two columns whose names differ in parentheses only: the second one has the values of the first one.
  * `Impulse.C94_fails_char`: A name of a column with another character, such as a minus sign, cannot be read, although the file is a valid table.
  * `Impulse.C94_fails_single`: A log of one measurement cannot be read.
  * `Impulse.C94_fails_folder`: Any path with `raw` in the name of a folder passes the check of the name.
* **C95** Scans of TVIPS files are rebuilt from the rotator indices
  * `TvipsScan.C95_fails_after`: Frames after the scan, with the index 0 again: differences of unsigned numbers are never negative, so the end of the scan is taken to be the first frame after it, which stands for a scan without any position. Nothing of the scan is read.
  * `TvipsScan.C95_fails_line`: A line scan: the axes of the images are called "x" and "dy", and the first one has neither the pixel size nor the units of the images.
  * `TvipsScan.C95_fails_single`: A recording of a single frame cannot be loaded as a stack.
* **C96** EDAX spectra are read from where their header says
  * `Edax.C96_fails_old`: A file that ends with the header of its version, before 0.70, cannot be loaded without `load_all_spc`: the short form of the header is four bytes longer than the complete one.
  * `Edax.C96_fails_cut`: A file that is cut off within the spectrum is loaded without complaint, with fewer channels than it says.
  * `Edax.C96_fails_symbol`: Copernicium is named by a symbol it never had.
* **C97** EDAX spectrum images keep every count at its pixel and channel
  * `Edax.C97_fails_big`: Without `lazy`, counts of big-endian maps are read in the order of the machine: two bytes `0, 1` are the count 256 instead of 1.
  * `Edax.C97_fails_channels`: Without an `.spc` file, the channels of a map are counted from 1, but its lines and pixels from 0.
* **C98** EDAX line scans keep every spectrum and its distance
  * `Edax.C98_fails_single`: A line of one spectrum, or of spectra with one channel, cannot be loaded: `squeeze` removes these dimensions too.
  * `Edax.C98_fails_row`: A table of distances with a single row makes loading fail.
  * `Edax.C98_fails_path`: The table of distances is looked for in the directory twice, when the directory is given relative to the current one.
  * `Edax.C98_fails_lines`: A line scan with several lines keeps three dimensions, but has two axes.
* **C99** Arrays saved as .npy files are loaded as they were
  * `NumpyFile.C99_fails_fortran`: The transposed array `[[0, 1, 2], [3, 4, 5]]` is saved in Fortran order. It is loaded as it was saved, but lazily its elements are mixed up: the value at `[0, 1]` is 3 and not 1.
  * `NumpyFile.C99_fails_empty`: An array of shape (0, 2) keeps both dimensions but gets a single axis.
  * `NumpyFile.C99_fails_negative`: `navigation_axes=[-1]` selects nothing, unlike everywhere else in NumPy.
* **C100** EELSLab files keep their data and their axes
  * `Netcdf.C100_fails_image`: A single image (type `image`, two dimensions): its Y axis becomes a navigation axis.
  * `Netcdf.C100_fails_spectrum`: A single spectrum: its energy axis becomes a navigation axis, as does that of a line of spectra.
  * `Netcdf.C100_fails_missing`: Without the attribute `y_scale`, the scales of the other axes are lost, too.
* **C101** Images keep their pixels, colours and calibration
  * `ImageFile.C101_fails_red`: An image with a single red pixel is taken for greyscale because the code compares green with blue twice: the other channels of all pixels are lost.
  * `ImageFile.C101_fails_alpha`: The alpha channel of a greyscale image is lost.
  * `ImageFile.C101_fails_thin`: An image with a single row cannot be loaded.
  * `ImageFile.C101_fails_la`: An image with a greyscale and an alpha channel cannot be loaded.
  * `ImageFile.C101_fails_frames`: Two colour frames of 3 × 3 pixels: the first two axes are those of the frames and of the rows, and there is no third one.
  * `ImageFile.C101_fails_index`: `index_in_array` of the axes is the wrong way round: the `y` axis of a 2 × 3 image has size 2 and index 1, but dimension 1 of the array has length 3.
  * `ImageFile.C101_fails_lazy`: Images cannot be loaded lazily: the shape that is given to dask is a delayed object.
* **C102** Arina data keep every count at its scan position and pixel
  * `Arina.C102_fails_detector`: No data of a detector that is not square can be loaded, since the array is made with exchanged width and height.
  * `Arina.C102_fails_counts`: A count of 65536 in a file of 32-bit integers becomes 0.
  * `Arina.C102_fails_mean`: Binning keeps the integer type: the mean 3/4 of the block 0, 1, 1, 1 becomes 0.
* **C103** MRCZ files give back data, axes and metadata
  * `Mrcz.C103_fails_image`: A single image, with two axes, cannot be written.
  * `Mrcz.C103_fails_units`: A time series in seconds comes back in nm.
  * `Mrcz.C103_fails_offset`: Offsets are lost.
* **C104** LabSpec files keep every intensity at its position and wavelength
  * `JobinYvon.C104_fails_single`: A file with a single wavelength cannot be read: whether to reverse the data was never decided.
  * `JobinYvon.C104_fails_uneven`: Positions that are not equidistant are not kept: the third position of the axis of this line scan, 1, 2, 5, is at 3.
  * `JobinYvon.C104_fails_axes`: Rows without a navigation axis, such as a series without positions: the data have two dimensions but one axis.
  * `JobinYvon.C104_fails_short`: A row cut down to one number is not noticed: the number fills the row.
  * `JobinYvon.C104_fails_depth`: A third navigation axis, as of a stack of line scans in depth, makes the file unreadable.
* **C105** Settings in LabSpec files arrive in the metadata, each at its place
  * `JobinYvon.C105_fails_hole`: A file without the hole among its settings cannot be read at all.
  * `JobinYvon.C105_fails_filter`: A file without the filter among its settings cannot be read at all.
  * `JobinYvon.C105_fails_unnamed`: An entry without a name replaces the entry before it.
  * `JobinYvon.C105_fails_empty`: A setting that should be a number but has no value makes the file unreadable.
* **C106** TriVista files keep every intensity at its position, time and wavelength
  * `Trivista.C106_fails_uneven`: C106 fails for times: only the first two count, so that a frame taken after five seconds is said to be taken after two (`_get_time_axis`).
  * `Trivista.C106_fails_place`: C106 fails for windows: their only axis is at place -1 (`set_axes`, where the place of the signal axis is the number of axes without it, less one).
  * `Trivista.C106_fails_windows`: C106 fails for windows with different numbers of wavelengths: they cannot be read.
  * `Trivista.C106_fails_glued_scan`: C106 fails for windows of a line scan: they cannot be read.
  * `Trivista.C106_fails_single`: C106 fails for one wavelength if the axis shall be uniform: the size is missing.
  * `Trivista.C106_fails_repeat`: C106 fails for maps with several frames at each position.
* **C107** Settings in TriVista files arrive in the metadata, each at its place
  * `TrivistaMeta.C107_fails_groups`: C107 fails for groups of groups with one name: only the last is kept (`_process_info_serialized`).
  * `TrivistaMeta.C107_fails_rename`: C107 fails for several groups with one name if another group has this name with the number one: that is lost.
  * `TrivistaMeta.C107_fails_number`: C107 fails for several groups with one name beside others: the second of them gets the number of the groups so far.
  * `TrivistaMeta.C107_fails_laser`: C107 fails for systems with one laser: the element is gone through as if it were a list.
  * `TrivistaMeta.C107_fails_detector`: C107 fails for systems with one detector.
  * `TrivistaMeta.C107_fails_grating`: C107 fails for spectrometers with one grating.
  * `TrivistaMeta.C107_fails_serial`: C107 fails if the serial number of no spectrometer is known: a name is used before it is set.
  * `TrivistaMeta.C107_fails_objective`: C107 fails if no objective is enabled: a list is taken for a dictionary.
  * `TrivistaMeta.C107_fails_time`: C107 fails for times with AM or PM.
  * `TrivistaMeta.C107_fails_title`: C107 fails for names of files with several dots: the title ends at the first.
  * `TrivistaMeta.C107_fails_slit`: C107 fails for spectrometers without a second exit: the widths of the slits that are known are left out.
* **C108** ELID files give every picture and analysis with its data, axes and title
  * `Phenom.C108_line_fails_calibration`: The axis of a line scan is made from the calibration of the sum spectrum, not from that of the line scan.
  * `Phenom.C108_map_fails_rectangular`: A picture of two columns and one row: pixels of a map of one row and two columns have the height 1 m and the width 1 m; the reader gives 2 m for the height.
  * `Phenom.C108_picture_fails_missing`: An entry without a picture makes the whole file unreadable.
  * `Phenom.C108_spot_fails_plain`: A spot analysis in a picture without metadata makes the whole file unreadable.
  * `Phenom.C108_free_fails_spot`: A spot analysis that belongs to no picture makes the whole file unreadable.
  * `Phenom.C108_free_fails_lost`: An MSA analysis that belongs to no picture is read but not returned.
  * `Phenom.C108_date_fails_short`: A date without a time makes the whole file unreadable.
* **C109** Metadata in ELID files arrives in the signals it belongs to
  * `Phenom.C109_msa_fails_acquisition`: The metadata of an MSA analysis has lost the acquisition of the picture; other metadata is there.
  * `Phenom.C109_line_fails_elements`: The elements that were identified are lost for line scans and maps.
  * `Phenom.C109_xml_fails_repeated`: Of two elements of the XML with one name only the last is kept.
  * `Phenom.C109_xml_fails_attributes`: Attributes of an element with children are lost.
* **C110** Delmic files give the acquisitions that were asked for, each value at its place
  * `Delmic.C110_scan_fails_sem`: Angle-resolved images without a SEM image are not passed on as they are, as the comment in the code says: the keys of the dictionary take the place of the images, and the file cannot be read.
  * `Delmic.C110_state_fails_missing`: An entry without the attribute "State", for which a default is documented, loses its acquisition: the exception that is caught is not the one that is raised.
  * `Delmic.C110_axis_fails_offset`: A pixel size without a position is lost.
  * `Delmic.C110_labels_fails_repeated`: Two dimensions without a label make the whole file unreadable, if the dimensions have to be sorted.
* **C112** EMD files of the Berkeley variant keep what was written
  * `EmdNcem.C112_fails_navigate`: **C112 fails**: the navigation axis comes back as one of the signal.
  * `EmdNcem.C112_fails_type`: **C112 fails**: the type of the signal is in the file, but it is not read.
  * `EmdNcem.C112_fails_empty_units`: **C112 fails**: empty units come back as a pair of brackets.
  * `EmdNcem.C112_fails_units`: **C112 fails**: underscores in units are removed.
  * `EmdNcem.C112_fails_slash`: **C112 fails**: of a title with a slash, only the last part comes back.
  * `EmdNcem.C112_fails_root`: **C112 fails**: a title that is a slash cannot be written without the signal landing at the root, where it is not found.
  * `EmdNcem.C112_fails_depth`: **C112 fails**: `_depth` is removed from the title.
  * `EmdNcem.C112_fails_cbed`: **C112 fails**: a title with `CBED` in it gives the signal another type.
  * `EmdNcem.C112_fails_scale`: **C112 fails**: with rounding, the scale of an axis that begins far from zero is lost. The arithmetic is that of whole numbers here.
  * `EmdNcem.C112_fails_chunks`: **C112 fails**: the default chunks keep the axes with the numbers of the signal axes whole, but in the transposed data these are others: of three spectra (rows) of 400000 channels, each chunk has all rows, and not all channels.
  * `EmdNcem.C112_fails_original`: **C112 fails**: metadata that HDF5 cannot store is left out in `Signal`, but in the four groups it prevents the file from being written.
* **C113** EMD files of the Berkeley variant give each dataset with its calibration
  * `EmdNcem.C113_stack_fails_squeeze`: **C113 fails**: in a stack, axes of length one disappear, and the others take the place and the calibration of the wrong dimension: the axis with two points has the name and the scale of `dim1`, whose length is one.
  * `EmdNcem.C113_stack_fails_zero`: **C113 fails**: a stack of datasets with dimensions counted from zero is not read; each of them is.
  * `EmdNcem.C113_stack_fails_same`: **C113 fails**: of two datasets in the same group, the first one is stacked with itself and the second one is never read.
  * `EmdNcem.C113_stack_fails_similar`: **C113 fails**: groups that have nothing to do with each other are stacked when the path of one dataset contains the name of the other group: group `a` with all datasets `data`. If the shapes differ, the file is not read.
  * `EmdNcem.C113_stack_fails_numbered`: **C113 fails**: numbered groups, for which the argument `stack_group` is made, are not stacked unless the file is one of prismatic.
  * `EmdNcem.C113_find_fails_root`: **C113 fails**: a dataset at the root whose name begins with `data` keeps all others from being read.
  * `EmdNcem.C113_axis_fails_single`: **C113 fails**: the scale of a dimension with a single position is not a number.
* **C114** Velox files give every dataset that is asked for, each value at its place
  * `EmdVelox.C114_fails_eels_axes`: C114. The axes of an EELS spectrum image do not fit its array: the axis `y` has the length of the first dimension and says it is the second, `x` the other way round.
  * `EmdVelox.C114_fails_shape`: C114. The shape of a spectrum image is that of the last picture read: with pictures of different shapes it depends on what is asked for.
  * `EmdVelox.C114_fails_rebin`: C114. The scale of the energy axis of a single spectrum is multiplied with `rebin_energy` although its channels are not merged.
  * `EmdVelox.C114_fails_uncalibrated`: C114. A single spectrum without calibration has the unit keV and the scale 1.
  * `EmdVelox.C114_fails_no_pictures`: C114. Nothing is read from a file with spectrum streams but without pictures.
  * `EmdVelox.C114_fails_spectra`: C114. Single spectra are not read from a file with pictures and without spectrum images, even if asked for.
  * `EmdVelox.C114_fails_lazy`: C114. The type of a picture depends on `lazy`.
  * `EmdVelox.C114_fails_channels`: C114. If the streams of detectors are added, the number of channels of the others is not looked at: events in channels the first does not have are outside of the array.
* **C115** Velox files give each signal its name, date and metadata
  * `EmdVelox.C115_fails_filename`: C115. The name of the file in the metadata is without directories, but not for EELS spectrum images.
  * `EmdVelox.C115_fails_individual`: C115. Whether the entries of single detectors are in the mapping of spectrum images depends on `sum_frames`, not on `sum_EDS_detectors`.
  * `EmdVelox.C115_fails_stale_name`: C115. A picture without number of its detector, in a file without operations, has the name of the detector of the picture before.
  * `EmdVelox.C115_fails_zone`: C115. A difference to UTC with a minus sign stays in the time.
  * `EmdVelox.C115_fails_no_date`: C115. A picture without start of its acquisition and without custom properties is an error.
* **C116** USID files are read completely and their axes show the values of the dimensions
  * `Usid.C116_fails_documented`: **Fails (C116).** The documentation says of `ignore_non_uniform_dims=True` that dimensions that are not uniform "will result in Exceptions": they are read with scale 1 and offset 0, and it is `False` that makes them errors.
  * `Usid.C116_fails_measurement`: **Fails (C116).** The attributes of the measurement, where the parameters of the experiment are, never reach the signals: the code looks twice at the group of the dataset.
  * `Usid.C116_fails_labels`: **Fails (C116).** Two dimensions with the same label: the data has more dimensions than there are different axes, and one axis is used twice.
  * `Usid.C116_fails_descriptor`: **Fails (C116).** A quantity with round brackets before its units in square brackets: part of the quantity becomes units.
* **C117** Writing a signal to a USID file and reading it gives the signal back
  * `Usid.C117_fails_navigate`: **Fails (C117).** Which axes are navigation axes does not come back: two signals that differ only in this are read alike.
  * `Usid.C117_fails_metadata`: **Fails (C117).** The metadata do not come back, whatever they are.
  * `Usid.C117_fails_single`: **Fails (C117).** An axis of one value is lost, with its position.
  * `Usid.C117_fails_order`: **Fails (C117).** If a signal axis comes before a navigation axis, the axes are exchanged: names, scales and offsets of the wrong dimension.
  * `Usid.C117_fails_keys`: **Fails (C117).** With dashes in keys two values of the metadata have the same attribute; the last one stays.
  * `Usid.C117_fails_units`: **Fails (C117).** An axis without units is read with units.
* **C118** TIFF files are read completely and their axes are calibrated as the program that wrote them says
  * `Tiff.C118_fails_exchanged`: **C118 fails for pixels that are not square** in files of FEI, TVIPS and Olympus: the height of the pixels is the scale of the width, and their width that of the height.
  * `Tiff.C118_fails_unnamed`: **C118 fails for axes without a name**: their name is the text "None".
  * `Tiff.C118_fails_imagej_units`: **C118 fails for the units of ImageJ**: only micrometres are read. With other units, e.g. nanometres, the scales are read and the axes have no units.
  * `Tiff.C118_fails_jeol_forced`: **C118 fails for files of JEOL with a forced resolution**: they cannot be read, because the description is not parsed then and the mapping needs it.
  * `Tiff.C118_fails_planar`: **C118 fails for colours in planes**: a file whose colours come first, e.g. of 3 × 5 × 7, cannot be read; the last axis is taken for the colours.
* **C119** Writing an image or a stack of images to a TIFF file and reading it gives it back
  * `Tiff.C119_fails_small`: **C119 fails for scales below 10⁻⁸**: the denominator of the resolution is zero.
  * `Tiff.C119_fails_latin1`: **C119 fails for units outside Latin-1**, e.g. ohms.
  * `Tiff.C119_fails_mixed`: **C119 fails for a width in micrometres and a height in other units**: the height is written with its units in its own tag, but the description has micrometres, and both axes are read with these.
  * `Tiff.C119_fails_no_units`: **C119 fails for axes without units**: they come back with the empty text.
  * `Tiff.C119_fails_ascii`: **C119 fails for units of the description that are not in seven bits**, e.g. 1/Å: `tifffile` rejects the description.
  * `Tiff.C119_fails_spectrum`: **C119 fails for signals of one dimension**: they cannot be written with the scale.
* **C120** The metadata of TIFF files are those of the tags
  * `Tiff.C120_fails_date`: **C120 fails for dates in the second format with a description**: there is no date then.
  * `Tiff.C120_fails_scanned`: **C120 fails for scanned images of JEOL**, whose mode is `eosASID`, as in the table of the mapping: the title says TEM.
* **C121** Streak images of Hamamatsu are read with their scalings and their description
  * `Tiff.C121_fails_comma`: **C121 fails for values with commas**: a value in quotes ends at its first comma, because the quotes do not begin the field.
  * `Tiff.C121_fails_series`: **C121 fails for series of streak images**: the first axis is an empty dictionary.
* **C122** Reading a NeXus file gives the signals of the NXdata groups and the datasets, those that are asked for
  * `Nexus.C122_fails_external`: `hardlinks_only` is documented to ignore soft and external links; external links are followed.
  * `Nexus.C122_fails_target`: With `hardlinks_only` the datasets in a group that is the original of a NeXus link are left out: its attribute `target`, its own path, is compared with the paths of its children, and just a child with that path is read.
  * `Nexus.C122_fails_texts`: Arrays of texts are read as signals: their type is compared with `str` and `object`, which it never is.
  * `Nexus.C122_fails_single`: With a single entry and no attribute `default` of the file, the entry is not used: it is compared instead of set, and all signals are read.
  * `Nexus.C122_fails_part`: The default is a part of the path: with the default `d` the group `da` is read too.
  * `Nexus.C122_fails_key`: Without default, `use_default` makes the reader ignore the key for datasets.
  * `Nexus.C122_fails_empty`: A dataset without elements makes the whole file unreadable.
* **C123** The axes of NXdata have the values that the file gives for the dimension that it names
  * `Nexus.C123_fails_descending`: Values that descend are read as if they ascended: the scale is positive and the offset the smallest value.
  * `Nexus.C123_fails_values`: Values that are not in equal steps are lost, although axes can have such values.
  * `Nexus.C123_fails_tolerance`: Steps are compared with an absolute tolerance: values of some nanometres in metres are taken as equal steps whatever they are.
  * `Nexus.C123_fails_order`: The interpretation marks the last axes of the list; with axes that are listed in another order than the dimensions, the first dimension is that of the spectrum.
  * `Nexus.C123_fails_same`: Two axes for one dimension, which NeXus allows, make the file unreadable.
  * `Nexus.C123_fails_dot`: An axis without name before one for the first dimension takes this dimension as well; none is for the second.
  * `Nexus.C123_fails_beside`: Other datasets in the group have the axes of the signal, from the first on: three values along `x` have the axis `y`.
  * `Nexus.C123_fails_none`: Datasets outside NXdata have no axes at all.
* **C124** Signals that are written to a NeXus file come back with their data, axes and titles
  * `Nexus.C124_fails_negative`: An axis with a negative scale comes back with a positive one.
  * `Nexus.C124_fails_one`: The scale of an axis with one value is lost.
  * `Nexus.C124_fails_unnamed`: The calibration of an axis without name is lost.
  * `Nexus.C124_fails_values`: The values of an axis that are not in equal steps are lost.
  * `Nexus.C124_fails_three`: Three named signal axes come back as navigation axes.
  * `Nexus.C124_fails_data`: An axis with the name `data` has the data as its values.
  * `Nexus.C124_fails_letters`: Names of axes with letters that are not ASCII cannot be written.
  * `Nexus.C124_fails_space`: A space at the end of the name of an axis makes the file unreadable: the name is not found without it.
  * `Nexus.C124_fails_title`: The metadata of a signal with the title `auxiliary` are written to the group of the signal, and are lost: the group is NXdata.
  * `Nexus.C124_fails_slash`: Slashes in a title are replaced, and two underscores at its beginning are removed.
  * `Nexus.C124_fails_ten`: Ten signals come back in another order: the tenth after the first.
  * `Nexus.C124_fails_default`: With the arguments as they are by default, the axes come back as signals in addition.
* **C125** Metadata that are written to a NeXus file come back
  * `Nexus.C125_fails_general`: Of `General` only the title is left: the authors are lost.
  * `Nexus.C125_fails_keys`: Names that begin with `keys` are changed.
  * `Nexus.C125_fails_list`: A list with one element comes back as the element.
  * `Nexus.C125_fails_none`: Nothing is written for `None` and for empty lists.
  * `Nexus.C125_fails_numpy`: Integers of numpy in the metadata raise AttributeError.
  * `Nexus.C125_fails_value`: A dictionary with `attrs` and the value `None` raises KeyError.
  * `Nexus.C125_fails_only`: A dictionary with nothing but `value` comes back as the value.
  * `Nexus.C125_fails_space`: Spaces at the end of texts are removed.
  * `Nexus.C125_fails_dicts`: A list of dictionaries is written under other names.
  * `Nexus.C125_fails_structure`: A signal without original metadata has those of the file: its groups and their classes.
* **C126** Spectra of JEOL .eds files are read with their axis, their counts and the tables of the file
  * `JeolEds.C126_fails_no_lines`: C126 fails for an element without lines: its atomic number is that of the last line of the element before it (copper becomes 26).
  * `JeolEds.C126_fails_first`: C126 fails for a first element without lines: the variable is not set, and the file cannot be read at all.
  * `JeolEds.C126_fails_no_parameters`: C126 fails for a file without parameters (another number than 5 after the results): `KeyError`, although the spectrum has been read.
  * `JeolEds.C126_fails_long_name`: C126 fails for names of more than 127 bytes: the length is read as a signed byte, and the name takes all that is left.
* **C127** Spectrum images of JEOL .pts files count every event of the frames that are asked for, at its shifted and downsampled place
  * `JeolPtsFails.C127_fails_frame_list`: C127 fails for a list of frames: the size of the frame axis is the number of the last frame and one (3), not the number of frames that are loaded (2).
  * `JeolPtsFails.C127_fails_frame_time`: C127 fails for downsampling: a frame of 4 pixels of 10 ms takes 0.04 s, but the scale of the frame axis is 0.01 s when rows and columns are downsampled by 2.
  * `JeolPtsFails.C127_fails_origin`: C127 fails for shifts: the second frame is one row lower, so that the first row of the result is the second of the first frame; but it is the column axis that gets an offset, of 1 µm, when a pixel is 500 µm.
  * `JeolPtsFails.C127_fails_image_axes`: C127 fails for the axes of the S(T)EM image: they are the same dictionaries as those of the spectrum image and become navigation axes.
  * `JeolPtsFails.C127_fails_cutoff`: C127 fails for a cut-off above the range of the detector: the array gets channels (5002) that the detector does not have.
  * `JeolPtsFails.C127_fails_sweeps`: C127 fails if the stream has more frames than the header says and one: the others are left out.
  * `JeolPtsFails.C127_fails_shift_list`: C127 fails for shifts of two numbers for all frames, if not all frames are loaded: `ValueError`.
* **C128** JEOL archives give the signals of all their files, and images their pixels
  * `JeolAsw.C128_fails_short`: C128 fails if pixels are missing: they are filled with zeros, without an error.
  * `JeolAsw.C128_fails_long`: C128 fails if there are more values than pixels: the others are left out, without an error.
  * `JeolAsw.C128_fails_missing_file`: C128 fails if a file of the archive is missing: `FileNotFoundError`; none of the others is returned.
* **C129** An hspy or zspy file returns the signal that was saved
  * `HspyFails.C129_fails_unnamed`: C129 is false for the title `__unnamed__`: it comes back as the empty text.
* **C130** Updating an hspy file without writing the data keeps the data
  * `HspyUpdate.C130_fails_explicit_mode`: C130 is false for a mode given by the user: the keyword `mode` is also passed on to the function that creates the dataset, so that no signal can be saved with `mode="w"`.
  * `HspyFails.C130_fails_removed`: C130 is false for metadata removed before an update with `write_dataset=False`: they are still in the file.
  * `HspyFails.C130_fails_changed_kind`: C130 is false for metadata that change their kind: a section replaced by a text is still read as the old section.
  * `HspyFails.C130_fails_changed_title`: C130 is false when the title changed: the update goes to a new group, without data, which is not read.
* **C131** Metadata of old hspy files are found under their new names
  * `HspyFails.C131_fails_detectors_lost`: C131 is false for a microscope with EELS settings that already has detectors: they are lost (and the EELS settings are found under `Detector`, not `Detector.EELS`).
  * `HspyFails.C131_fails_sections_replaced`: C131 is false for a microscope with a tilt that already has a section `Stage`, or with an exposure time that already has a section `Detector.Camera`: their items are lost.
  * `HspyFails.C131_fails_two_exposures`: C131 is false for a microscope with both `exposure` and `exposure_time`: the first stays under its old name.
* **C132** Axes of Digital Micrograph images have the calibration of their dimension
  * `DMSignal.C132_fails_xray_energy`: The energy axis of an X-ray spectrum image is called `x`: `signal_type` gives `EDS_TEM`, but `names` looks for `EDS` or `EDX`, so the name `Energy` is never given.
  * `DMSignal.C132_fails_more_calibrations`: In an image with more calibrations than dimensions the axes get the calibrations of the wrong dimensions: the list is reversed before it is matched with the axes.
* **C133** Pixels of Digital Micrograph images are those of the file
  * `DMSignal.C133_fails_big_endian`: The pixels of a big-endian file are read with their bytes reversed: the byte order found by the tag parser (`Data.endian`) is not used for the data.
* **C135** Spectrum images of Bruker files
  * `Bruker.C135_fails_width_scale`: C135 does not hold for maps with other steps for rows and columns: the width is scaled with the step of the height (lines 1472-1479 use `y_res` twice).
  * `Bruker.C135_fails_ten`: C135 does not hold for maps with numbers from ten: the last digit is the number, so that the eleventh map has that of the first, and the number ten is refused.
  * `Bruker.C135_fails_two_lines`: C135 does not hold for elements with several lines: only the last one is kept.
  * `Bruker.C135_fails_auto_enlarges`: C135 does not hold in that the cut at the beam energy never adds channels: when the amplification is larger than the last energy of the spectrum, the map has more channels than the spectrum.
* **C136** Images of Bruker files
  * `Bruker.C136_fails_no_unnamed`: C136 does not hold for files in which all images are named: the reader stops with `UnboundLocalError` (here `nameError`), even if only the maps are asked for.
  * `Bruker.C136_fails_overviews`: C136 does not hold for overview images after the first: they are not read.
  * `Bruker.C136_fails_blank`: C136 does not hold for blank planes: no image is made of them.
* **C137** Spectra of Bruker spx files
  * `Bruker.C137_fails_no_date`: C137 does not hold for spectra without a date: the attribute `date` is used although it has not been set.
  * `Bruker.C137_fails_no_life_time`: C137 does not hold for spectra with a real time and no live time.
  * `Bruker.C137_fails_name`: C137 does not hold in that a spectrum without a name is `Undefined`: the text is misspelt.
  * `Bruker.C137_fails_one_element`: C137 does not hold for a single selected element: the elements are a text and not a list of one, since the dictionary of one node holds its value.
* **C138** MRC files give the array, type and axes of their header
  * `MrcFile.C138_fails_big_endian`: The byte order that the user gives is that of the header only: the pixels of a big-endian file are read as little-endian.
  * `MrcFile.C138_fails_no_navigation`: With the navigation shape `()` of a single image its axes are called z and y.
* **C139** Metadata of Direct Electron cameras give the scan and its axes
  * `MrcFile.C139_fails_equals`: A value that contains `=` is left out.
  * `MrcFile.C139_fails_one_position`: A list of a single position is an error.
  * `MrcFile.C139_fails_repeats`: When positions are visited again the data has the dimensions y, x, visit, but the axes are called time, y and x.
  * `MrcFile.C139_fails_line`: With the navigation shape (2, 1) of a line of two points the axis x is missing, and the sizes are given to the wrong axes.
  * `MrcFile.C139_fails_sum`: When two frames of the camera are summed into one, which takes a second at two frames per second, the time between the saved frames is a quarter of a second.
* **C140** The axes of Tofwerk signals have the sizes of the data and span the field of view
  * `TofwerkFile.C140_fails_writes`: C140 fails for an acquisition that was stopped: the number of slices of the attributes is that of the axis, though the data have fewer.
  * `TofwerkFile.C140_fails_segments`: C140 fails for a number of segments other than the number of rows.
  * `TofwerkFile.C140_fails_fill`: C140 fails for additional peaks of an acquisition that was stopped: the last slice is repeated for the slices that are missing if it is alone in its batch; with other batches reading fails.
  * `TofwerkFile.C140_fails_images`: C140 fails for images of fewer slices: reading from a slice on for which there is none fails for all signals.
  * `TofwerkFile.C140_fails_offset`: C140 fails for the position of the slices: the depth axis of the slices from the second on starts at zero.
* **C141** Times and numbers of Tofwerk metadata are those of the file
  * `TofwerkFile.C141_fails_pixel`: C141 fails for the pixel size of the metadata, which is computed from the number of rows: here it is twice that of the axes.
  * `TofwerkFile.C141_fails_channels`: C141 fails for channels with a number of two digits: they are not counted.
  * `TofwerkFile.C141_fails_values`: C141 fails for numbers other than 0 and 1: one channel counts for several.
  * `TofwerkFile.C141_fails_interval`: C141 fails for a clock without the interval of samples, which is then taken as one second.
* **C142** Digital Surf metadata keep date, time and quantity
  * `DigitalsurfMeta.C142_fails_midnight`: **C142 fails at midnight**: the time is taken to be unknown. A file that was read in this way cannot be written: a date alone has no seconds.
  * `DigitalsurfMeta.C142_fails_alone`: **C142 fails for a date or a time alone**: such a signal cannot be written.
  * `DigitalsurfMeta.C142_fails_zone`: **C142 fails for time zones**: they are not written.
  * `DigitalsurfMeta.C142_fails_words`: **C142 fails for quantities of several words without units**: the last word comes back as units.
  * `DigitalsurfMeta.C142_fails_year`: **C142 fails for years of less than four digits**: the date has spaces.
* **C143** Digital Surf comments are taken as metadata just if they are, and come back
  * `DigitalsurfMeta.C143_fails_empty`: **C143 fails for empty parsed metadata**: they are not passed over, but written themselves, although a later object has some.
  * `DigitalsurfMeta.C143_fails_underscore`: **C143 fails for titles that differ in underscores at their beginning**: one of the sections is lost.
* **C144** Metadata of cathodoluminescence have the units of their values
  * `DigitalsurfMeta.C144_fails_exposure`: **C144 fails for the time of integration**: its units are the time.
  * `DigitalsurfMeta.C144_fails_blaze`: **C144 fails for the wavelength of the blaze**: its units are those of the central wavelength.
* **C145** Images are written as they are or as figures of the asked size
  * `ImageWrite.C145_fails_equal`: The ratios of `imshow` that are texts cannot be used without a width and a height.
  * `ImageWrite.C145_fails_capitals`: An image cannot be written with a size if the extension is in capitals.
  * `ImageWrite.C145_fails_stack`: A stack of ten images of 5 by 3 pixels is shown as a colour image of 10 by 5 pixels: with a width of 100 it is 200 pixels high.
* **C146** Scale bars have the scale and the units of the image
  * `ImageWrite.C146_fails_dimension`: With options given as a dictionary, a picture after a diffraction pattern gets the bar of reciprocal lengths, because the dictionary of the caller is changed.
* **C147** Metadata of Panta Rhei files have the units of HyperSpy and come back after writing
  * `PantarheiMeta.C147_fails_title`: A title is cut at its first dot.
  * `PantarheiMeta.C147_fails_date`: A date without a time is lost, and so is the zone of a time.
  * `PantarheiMeta.C147_fails_type`: Other types of signals are lost, and EELS for images.
  * `PantarheiMeta.C147_fails_aperture`: An aperture described by a text with `mm` becomes a number, or the file cannot be read.
  * `PantarheiMeta.C147_fails_mode`: Metadata of a microscope without a mode, or with another one, get the mode `TEM`.
  * `PantarheiMeta.C147_fails_changed`: The metadata of a signal from a `.prz` file are written as they were: a changed title is lost.
* **C148** Headers of Merlin files are read as they are written
  * `MerlinFile.C148_fails_kind`: Pixels of an unknown kind are read as `float64` without an error.
  * `MerlinFile.C148_fails_capitals`: For a name with an ending in capitals the file itself is read as the other file: if it is no text, this is an error, whatever `a.hdr` contains.
  * `MerlinFile.C148_fails_folder`: In a folder with `.mib` in its name the other file is not found.
* **C149** Scans of Merlin files have the lines that were scanned
  * `MerlinFile.C149_fails_jitter`: A stack of five images taken at slightly different times is read as a scan, and the last image is not read.
  * `MerlinFile.C149_fails_zero`: No frames in a trigger, as some files have it, is an error.
* **C150** Images of Merlin files have the pixels of the file, upside down
  * `MerlinFile.C150_fails_row`: Of images with one row the frames of a scan are turned around instead.
* **C151** Metadata of .emi files are those of the file
  * `TiaMeta.C151_fails_blank`: C151 fails for a file with line breaks between elements: they are a text, and the elements in it are not read.
  * `TiaMeta.C151_fails_empty`: C151 fails for an entry with units and no value: `float(None)` is a `TypeError`, which is not caught, and nothing of the file is read.
  * `TiaMeta.C151_fails_exposure`: C151 fails for the exposure: it is a text, as it is in the file, and not a number.
  * `TiaMeta.C151_fails_position`: C151 fails for a position that is no number: the metadata cannot be mapped.
  * `TiaMeta.C151_fails_true_image`: C151 fails for `TrueImageHeaderInfo`: its entries are searched by bytes and none is found.
* **C152** Diffraction patterns of .ser files are in reciprocal units
  * `TiaMeta.C152_fails_info`: C152 fails for a diffraction pattern in a file that does not have `AcquireInfo`: it is in real space.
* **C153** Calibrations of Ripple files come back
  * `RippleFile.C153_fails_column`: The rows of an image of one column come back as an axis for navigation.
  * `RippleFile.C153_fails_stack`: A stack of one image is written, and refused when it is read.
  * `RippleFile.C153_fails_single`: The scale of an axis of length one is lost.
* **C154** Metadata of Ripple files come back
  * `RippleFile.C154_fails_sem`: The values of a SEM come back as those of a TEM.
  * `RippleFile.C154_fails_eds`: EDS without an instrument in its name is not written.
  * `RippleFile.C154_fails_tilt`: The tilt of EELS is not written, although it would be read.
  * `RippleFile.C154_fails_other`: The beam energy is not written for a signal of another type.
* **C155** Headers of INCA are read like Ripple headers
  * `RippleFile.C155_fails_order`: The layout is joined with the line that follows it; the file is refused.
  * `RippleFile.C155_fails_title`: A title is cut at its first blank, and comes in lower case.
* **C156** Intensities of blockfiles are scaled as asked
  * `BlockfileScale.C156_fails_reversed`: A range in the wrong order makes all pixels white.
  * `BlockfileScale.C156_fails_constant`: Constant data are not mapped to the range by their minimum and maximum: they are cropped.
  * `BlockfileScale.C156_fails_wrap`: Without scaling, 256 is written as 0.
* **C157** Blockfiles have an image for navigation
  * `BlockfileScale.C157_fails_line`: Without an image for navigation, a line is not written: the zeros have the shape of positions and rows of the pattern.
  * `BlockfileScale.C157_fails_line_array`: An image for navigation with one number for each position of a line is refused.
  * `BlockfileScale.C157_fails_stored`: An image of HyperSpy of another size is written all the same.
* **C158** Calibrations of blockfiles come back
  * `BlockfileScale.C158_fails_twice`: When the same dictionary is written again, the scale of the patterns is converted again: 2 cm become 200 cm, whose inverse is no whole number.
  * `BlockfileScale.C158_fails_line`: In a line the rows of the patterns have the step of the scan, and are for navigation.
  * `BlockfileScale.C158_fails_large`: A step of three metres is read as 1 cm.
  * `BlockfileScale.C158_fails_two`: Of two steps of the pattern that of the columns is read for both.
  * `BlockfileScale.C158_fails_camera`: The camera length, in tenths of millimetres in the file and in millimetres in HyperSpy, is read in metres: 80 mm are read as 0.08.
* **C159** Date, title and quantity of Renishaw files
  * `RenishawMeta.C159_fails_second`: C159 fails: in the last half of the last microsecond of a second the next second is reported (with exact arithmetic; with that of NumPy some more), because the number is rounded to microseconds before the fraction is cut off.
  * `RenishawMeta.C159_fails_end`: C159 fails: a file whose time of the end is no date (here the largest number) cannot be read, although this time is not used.
* **C160** Laser, grating and detector of Renishaw files
  * `RenishawMeta.C160_fails_wavenumber`: C160 fails: a file with metadata on lasers, but without a wavenumber, cannot be read.
  * `RenishawMeta.C160_fails_lasers`: C160 fails: of several lasers the first one is reported, whichever was used.
  * `RenishawMeta.C160_fails_matched`: C160 fails: the number of frames of a file that holds it in `WXDM`, name and value in the same part, is not found: only entries that are matched afterwards are searched.
* **C161** Mapped area in the white light image of Renishaw files
  * `RenishawMeta.C161_fails_line`: C161 fails: for measurements along a line (one row of `X` points, with steps in both directions) all points but the first two are outside of the rectangle.
  * `RenishawMeta.C161_fails_unfinished`: C161 fails: for an unfinished map the rectangle shows the map that was planned: here two rows, of which one was measured.
* **C162** Calibrations of TVIPS files
  * `TvipsMeta.C162_fails_pixel`: C162 fails: the size of pixels is that of the first axis, here the time from image to image.
  * `TvipsMeta.C162_fails_fine`: C162 fails: pixels of 0.4 nm have the size 0.
  * `TvipsMeta.C162_fails_negative`: C162 fails: images that begin left of 0, as diffraction patterns around their centre do, cannot be written.
  * `TvipsMeta.C162_fails_single`: C162 fails: a single image cannot be written.
  * `TvipsMeta.C162_fails_mode`: C162 fails: images in nm that are written in the mode of diffraction are read in 1/nm.
  * `TvipsMeta.C162_fails_units`: C162 fails: pixels in units that are no lengths are read in 1/nm, with the same number.
* **C163** Times of the frames of TVIPS files
  * `TvipsMeta.C163_fails_zone`: C163 fails: the date and time of a recording are those of the local time zone, but said to be UTC.
  * `TvipsMeta.C163_fails_fraction`: C163 fails: the fraction of a second of the start is counted in seconds, but not in milliseconds: images every 0.6 s from 0.5 s on are 1.6 s apart.
  * `TvipsMeta.C163_fails_fine`: C163 fails: images every 0.5 ms are at the same time.
* **C164** Metadata of TVIPS files
  * `TvipsMeta.C164_fails_tilt`: C164 fails: tilts of the stage are not written, as they are looked for at another place than that where they are read.
  * `TvipsMeta.C164_fails_defocus`: C164 fails: the defocus is not written.
  * `TvipsMeta.C164_fails_camera`: C164 fails: the camera length of diffraction patterns is read as magnification.
  * `TvipsMeta.C164_fails_both`: C164 fails: with camera length and magnification none is written.
  * `TvipsMeta.C164_fails_energy`: C164 fails: 80.5 kV are 80 kV.
* **C165** Metadata of instruments in TIFF files
  * `TiffMapping.C165_fails_stage`: C165 fails: the position of the stage of FEI stays in m, while the working distance, in m as well, becomes mm.
  * `TiffMapping.C165_fails_energy`: C165 fails: an energy in V is taken as one in kV.
  * `TiffMapping.C165_fails_unitless`: C165 fails: a position of the stage without units is an error.
  * `TiffMapping.C165_fails_magnification`: C165 fails: a magnification of 50 000 is the text `50.00 K X`.
  * `TiffMapping.C165_fails_hour`: C165 fails: times before ten o'clock have one digit for the hour.
  * `TiffMapping.C165_fails_day`: C165 fails: from 86400 s on the time has days.
* **C166** Metadata of the instrument in Phenom files
  * `PhenomMapping.C166_fails_unit`: C166 fails: the unit of the high voltage is ignored, and 15000 V become 15000 keV.
  * `PhenomMapping.C166_fails_position`: C166 fails: a position of the stage with a unit raises a `TypeError` when the metadata are converted, as `float` is called with a dictionary.
  * `PhenomMapping.C166_fails_empty`: C166 fails: so does an empty one.
* **C167** Names of the files of TVIPS recordings
  * `TvipsNames.C167_fails_stale`: C167 fails: when a recording in one file replaces one in two files, the second file of the old one stays, and its frames are read as if they belonged to the new one.
  * `TvipsNames.C167_fails_bare`: C167 fails: a file that is called like its number only is written, but not accepted for reading.
* **C168** Metadata of Tofwerk files
  * `TofwerkMeta.C168_fails_beam`: Without the current of the beam, voltage, field of view and hardware are lost as well.
  * `TofwerkMeta.C168_fails_version`: A version stored as bytes is given with the marks of bytes, other than the other texts.
  * `TofwerkMeta.C168_fails_array`: A text stored as an array of one text is given as the array is shown.
  * `TofwerkMeta.C168_fails_segments`: Without the number of segments the metadata say that there are none, while the pixels are those of one segment.
  * `TofwerkMeta.C168_fails_name`: An attribute of the file named as the axis of masses is replaced.
* **C169** Names of the EXIF tags of images
  * `ExifNames.C169_fails_unknown`: Of the tags without a name only the value of the last is kept.
  * `ExifNames.C169_fails_same`: Of two tags that have their name in common only the value of the last is kept.
* **C170** Colours of Digital Surf files
  * `DigitalsurfPost.C170_fails_limit`: The number 65536 is taken for one of 16 bits and becomes 0.
  * `DigitalsurfPost.C170_fails_negative`: Negative numbers are converted without a look at them.
  * `DigitalsurfPost.C170_fails_fraction`: Fractions are lost.
  * `DigitalsurfPost.C170_fails_dark`: An image of 16 bits without values above 255 becomes one of 8 bits, and its brightest values the brightest of all.
* **C171** Nested parts of Renishaw metadata
  * `RenishawNested.C171_fails_clash`: The part 12 in the part 345 has an identifier that begins with that of the part 34: it is put into that part as well.
  * `RenishawNested.C171_fails_gap`: A part in a part whose own values all have names is lost, and if there is no other the file cannot be read.
* **C172** Records of FEI in MRC files
  * `MrcFei.C172_fails_single`: The lists always have 1024 numbers: the magnification of a single image is a list of 1024 numbers and not a number, whatever the number of images.
  * `MrcFei.C172_fails_cut`: A file that ends within the extended header loses all of it, also the records that are complete.
  * `MrcFei.C172_fails_units`: Positions of the stage are in metres in the file, and stay so: those of other formats are in millimetres (C151, C166).
* **C173** Texts of serial dates
  * `IsoDate.C173_fails_abbreviation`: The abbreviations of zones that serial dates are shown with are often not found, and the parser overlooks them: the local time is taken as UTC.
  * `IsoDate.C173_fails_own_zone`: A time that has its own zone loses it when a zone is found, also the one that is meant if none is given.

## Plan per property

| id | model | proof |
|----|-------|-------|
| C01-C05 | `_fei_stream_readers.py` loops as recursion over the stream with the loop variables as state | refinement to a specification that splits the stream at the pixel markers and counts |
| C06-C07 | `_distributed.py`: chunk slices from chunk lengths, position map, block loading | existence and uniqueness of the covering slice by induction on the dimensions; "last write wins" by induction on the positions |
| C08-C09 | `rgb.py`, `_array.py` on flat arrays / field lists | round trip, exhaustive case analysis of the dtypes |
| C10-C11 | `_dictionary.py` on a tree of association lists | induction on paths and trees |
| C12-C13 | `path.py`: recursion over counters with the set of existing files as parameter; prompt loop over the list of answers | induction; counterexample for upper-case answers at the second prompt |
| C14 | `_date_time.py` in exact arithmetic over seconds | `omega`; counterexample before the epoch |
| C15-C16 | byte codecs | encode/decode round trip for all widths |
| C17-C20 | `_hierarchical.py` | mutual induction on the value tree; counterexamples for long nested lists, reserved texts and several models |
| C21-C24 | `blockfile/_api.py` | layout inequalities; round trip by induction on frames; counterexamples for degenerate sizes |
| C25-C26 | `msa/_api.py` | round trip by induction on the header; state machine over calls |
| C27-C28 | `ripple/_api.py` | round trip |
| C29-C31 | `tvips/_api.py` | induction on the frame list; permutation proof |
| C32-C34 | `semper/_api.py` | codecs, framed records |
| C35-C36 | `mrc/_api.py` | induction on the name list |
| C37-C39 | `quantumdetector/_api.py` | arithmetic case analysis |
| C40-C42 | `digitalmicrograph/_api.py` | parser inverts a specification encoder, mutual induction on tag trees |
| C43-C46 | `jeol/_api.py` | induction on the raw stream |
| C47-C50 | `bruker/_api.py`, `unbcf_fast.pyx` | chunked-file refinement, stream/block independence |
| C51 | `_deprecated.py` | case analysis; counterexample for a replaced keyword |
| C52-C53 | `pantarhei/_api.py` | permutation algebra; counterexamples |
| C54-C57 | `mrc/_api.py`, `jeol/_api.py`, `bruker/_api.py`, `pantarhei/_api.py` | as for the other properties of these modules |
| C58-C63 | `tofwerk/_reconstruction.py`, `tofwerk/_api.py` | counting over events, permutation algebra, case analysis |
| C64-C67 | `tia/_api.py` | parsing by inversion, positions of records, list algebra; counterexamples |
| C68-C72 | `digitalsurf/_api.py` | codecs, rounding of single precision, error bounds, list algebra; counterexamples |
| C73-C76 | `quadstar/_api.py` | positions of fields, order of single-precision numbers, telescoping sums; counterexamples |
| C77-C80 | `renishaw/_api.py` | positions of blocks, mutual induction over trees of entries, list algebra, least squares; counterexamples |
| C81-C83 | `utils/xml.py` | regular expression as a grammar, mutual induction over trees of elements; counterexamples |
| C84-C86 | `hamamatsu/_api.py` | round trip of comments, positions of pixels, least squares, paths of dictionaries; counterexamples |
| C87-C88 | `empad/_api.py` | positions in C order, cases on entries; counterexamples |
| C89-C90 | `topspin/_api.py` | sets of positions in equal steps, induction over trees; counterexamples |
| C91 | `pantarhei/_restricted_unpickling.py` | invariant of the stack machine over all instruction sequences |
| C92 | `dens/_api.py` | round trip of lines, least squares, induction over days; counterexamples |
| C93-C94 | `protochips/_api.py`, `impulse/_api.py` | round trip of tables, folds over header lines, telescoping sums; counterexamples |
| C95 | `tvips/_api.py` (automatic scans, axes) | loop invariant over the frames, arithmetic modulo 2^32; counterexamples |
| C96-C98 | `edax/_api.py`, `utils/_elements.py` | positions of fields by computation on the lists of the code, lookup lemma for all files, path lemmas; counterexamples |
| C99 | `numpy/_api.py` | C order by flat indices, chunks by C06; counterexamples |
| C100 | `netcdf/_api.py` | tables of attributes by computation, look-up lemma for all files; counterexamples |
| C101 | `image/_api.py` (reading), `utils/_image.py` | channels of flat lists; counterexamples |
| C102 | `arina/_api.py` | induction over datasets, block sums; counterexamples |
| C103 | `mrcz/_api.py` | removal of header fields by induction; counterexamples |
| C104, C105 | `jobinyvon/_api.py` | folds over children by projection lemmas, dictionaries by look-up; counterexamples |
| C106, C107 | `trivista/_api.py` | induction on trees of groups, folds with exactly one match, dictionaries by membership; counterexamples |
| C108, C109 | `phenom/_api.py` | a reader that consumes exactly the bytes of an encoder, composed field by field; dictionaries by membership; counterexamples |
| C110, C111 | `delmic/_api.py` | stable sorting by its parts with one key, places by names, ranks by counting; counterexamples |
| C112, C113 | `emd/_emd_ncem.py`, `emd/_api.py` | paths by their parts, the written file by its list of entries; the round trip follows from the theorem on reading; counterexamples |
| C114, C115 | `emd/_emd_velox.py` | values at paths of metadata as a relation, names by the first operation that mentions a dataset, sums of streams by induction from the theorems on streams; counterexamples |
| C116, C117 | `usid/_api.py` | dictionaries of distinct keys are lists, tables in any order by permutations; keys joined by dashes are injective; counterexamples |
| C118, C119, C120, C121 | `tiff/_api.py` | the last tag of a name as a relation, one constructor per program; the round trip follows from the theorem on reading; rows split at commas when no field begins with a quote; counterexamples |
| C122, C123, C124, C125 | `nexus/_api.py`, `utils/hdf5.py` | objects at paths as a relation, links by what is behind them; rows of axes as a relation; what is written for a value as a relation, between the value and what is read; counterexamples |
| C126, C127, C128 | `jeol/_api.py` | tables by what is stored at an offset; the array by sums over the events of frames, from the theorems on streams (C43); archives as nested lists of entries, from the theorem on trees (C46); counterexamples |
| C129, C130, C131 | `_hierarchical.py`, `hspy/_api.py`, `zspy/_api.py` | from the theorems on dictionaries (C18): what each group holds after writing, then what is read from a group that holds it, for any order of names; renamings by lookups, one lemma per pattern; counterexamples |
| C132, C133, C134 | `digitalmicrograph/_api.py` | axes by dimension counted from X, names by the place among the remaining axes; pixels by their place with X fastest, which is the C order of the reversed shape; counterexamples |
| C135, C136, C137 | `bruker/_api.py` | base64 as in RFC 4648 and a round trip for any text with other characters in between; channels as the nearest energy; axes and metadata as a relation between header and signal, for any decoder; counterexamples |
| C138, C139 | `mrc/_api.py` | header by the bytes at each word of MRC2014; axes by their place from the last; positions by counting earlier visits; readers of metadata as relations between dictionary and axes; counterexamples |
| C140, C141 | `tofwerk/_api.py`, `tofwerk/_reconstruction.py` | shapes of data sets against sizes of axes, one signal at a time; dates digit by digit; configuration texts as an inductive relation; counterexamples |
| C142, C143, C144 | `digitalsurf/_api.py`, `utils/_date_time.py` | dates digit by digit, `dateutil` as a parser of that format; comments as lists of lines; keys of objects by their form; pairs of values and units by their place in the comment; counterexamples |
| C145, C146 | `image/_api.py: file_writer` | exact sizes of figures in inches times dots per inch; options as dictionaries that outlive a call; external libraries as parameters; counterexamples |
| C147 | `pantarhei/_api.py` | dictionaries of dotted paths with numbers and texts; `float`, `str` and `fromisoformat` as parameters; reading after writing for each path; counterexamples |
| C148, C149, C150 | `quantumdetector/_api.py` | headers as fields joined by commas, files as records of header and big-endian pixels; sums of steps in time against multiples of a step; each pixel at its place; counterexamples |
| C151, C152 | `tia/_api.py` | XML as a tree, what it says at a path as an inductive relation; numbers for entries with units; modes as texts with a part; counterexamples |
| C153, C154, C155 | `ripple/_api.py` | a signal as list of axes and optional values, read from the text of the written header through C27; INCA headers compared with plain headers; counterexamples |
| C156, C157, C158 | `blockfile/_api.py`, `utils/_skimage_exposure.py` | exact numbers; bytes by inequalities with the mapped range; composed with C21 and C22; unit conversion as parameter; counterexamples |
| C159, C160, C161 | `renishaw/_api.py` | bytes of the header through C77; dates by day numbers in closed form; entries in trees as an inductive relation; floating-point division as parameter with an error; counterexamples |
| C162, C163, C164 | `tvips/_api.py` | numbers of the headers; rounding by inequalities; times by division with remainder; units as parameter; counterexamples |
| C165 | `tiff/_api.py` (tables of metadata) | places in trees as an inductive relation; induction on the table with different destinations; conversions of units as parameter; counterexamples |
| C166 | `phenom/_api.py` (`_make_mapping`) | places in trees with the relation of C109; the last entry of the table with a destination; composed with C109; counterexamples |
| C167 | `tvips/_api.py` (names of files) | the regular expression as a search for the last match; folders as dictionaries; numbers with three digits are different; composed with C29; counterexamples |
| C168 | `tofwerk/_api.py` (`_build_metadata`, `_build_original_metadata`) | attributes as values or arrays; found in lists of entries by an independent relation; each value in the result, keys different; counterexamples |
| C169 | `utils/_image.py` (`_parse_exif_tags`) | which tag is last of a name, by induction from the right; counterexamples |
| C170 | `digitalsurf/_api.py` (post-processing) | the greatest value bounds all; conversion keeps whole numbers in range; counterexamples |
| C171 | `renishaw/_api.py` (`_match_WXDM_values`) | the tree of parts as an inductive relation; the identifiers that are left as a filter of all, by induction on the levels and on the parts of a level; counterexamples |
| C172 | `mrc/_api.py` (`get_fei_dtype_list`, `mapping`) | positions of the fields computed from their sizes; columns against the bytes of the records; counterexamples |
| C173 | `utils/_date_time.py` (`serial_date_to_ISO_format`, `ISO_format_to_serial_date`) | parser and time zones as parameters; composed with C14; counterexamples |


## Axioms

Output of `#print axioms` for every theorem named in `MANIFEST.json`, grouped.

* no axioms: `Fei.C03_empty_range_differs`, `Rgb.C08_lazy_regular_fails`, `StoredModels.C20_fails_two_signals_with_models`, `Blockfile.C21_not_16_aligned`, `Ripple.C28_short`, `QuantumDetector.C37_fails_interrupted_range`, `QuantumDetector.C37_fails_reversed_range`, `QuantumDetector.C38_buffer_partial`, `QuantumDetector.C38_fails_first_frame`, `QuantumDetector.C38_fails_quad`, `Jeol.C55_fails_tall`, `TofwerkSum.C62_fails_shapes`, `Tia.C64_fails_end`, `Edax.C96_fails_symbol`, `Edax.C97_fails_big`, `MrcFile.C139_fails_one_position`
* `propext`: `Distributed.C07_fails_for_single_position_chunks`, `Rgb.C08_other_unchanged`, `Rgb.C08_rejects`, `HeaderArray.C09_many_records_rejected`, `Dictionary.C10_value_in_the_way`, `Dictionary.C11_flat_partial`, `Dictionary.C11_fails_custom_separators`, `Path.C12_append2pathname`, `Path.C13_answers_partial`, `Path.C13_fails_upper_case_at_second_prompt`, `Ragged.C17_flatten_unflatten_partial`, `Ragged.C17_shapes`, `Ragged.C17_fails_empty_text_cell`, `SignalChunks.C19_fails_empty_signal`, `SignalChunks.C19_fails_empty_navigation`, `HierDict.C18_same_lookup`, `Blockfile.C22_fails_big_endian`, `Blockfile.C23_readFile_note`, `Blockfile.C23_fails_non_ascii`, `Blockfile.C23_fails_long_non_ascii`, `Blockfile.C24_lazy_refuses`, `Blockfile.C24_fails_single_line`, `Blockfile.C24_fails_truncated`, `Ripple.C28_axes`, `Tvips.C29_fails_version_1`, `Tvips.C29_fails_single_image`, `Tvips.C29_fails_one_frame`, `Tvips.C31_fails_shorter_recording`, `Semper.C32_fails_no_title`, `Semper.C32_fails_non_ascii`, `Semper.C33_fails_big_endian`, `Semper.C34_fails_other_unit`, `Semper.C34_fails_no_unit`, `Semper.C34_fails_long_unit`, `Semper.C34_fails_length_one`, `Mrc.C36_fails_scan`, `Mrc.C36_fails_time_without_delay`, `Mrc.C36_fails_movie`, `Mrc.C54_fails_inner_length_one`, `Mrc.C54_fails_single_frame`, `DigitalMicrograph.C41_fails_string`, `DigitalMicrograph.C41_fails_strings`, `DMImage.C42_square`, `DMImage.C42_fails_new`, `Jeol.C43_fails_lazy`, `Jeol.C44_fails_tall`, `Jeol.C44_fails_downsampled`, `Jeol.C44_fails_second`, `Jeol.C45_fails_lazy_image`, `JeolTree.C46_fails_same_name`, `JeolTree.C46_fails_below_value`, `JeolTree.C46_fails_limits`, `JeolTree.C46_fails_empty_name`, `JeolTree.C46_fails_silently`, `JeolTree.C46_fails_odd_length`, `Sfs.C48_fails_order_ex`, `Sfs.C48_fails_first_empty`, `Sfs.C48_fails_no_files`, `Hypermap.C56_fails_signed`, `Pantarhei.C53_fails_written`, `Pantarhei.C53_fails_fortran`, `TofwerkSum.C63_all_partial`, `TofwerkSum.C63_requested`, `Tia.C67_fails_first`, `Tia.C67_fails_end`, `Digitalsurf.C71_fails`, `Digitalsurf.C71_fails_zero`, `NumpyFile.C99_rejects`, `NumpyFile.C99_fails_fortran`, `NumpyFile.C99_fails_empty`, `NumpyFile.C99_fails_negative`, `ImageFile.C101_fails_red`, `ImageFile.C101_fails_alpha`, `HspyUpdate.C130_no_truncation`, `HspyUpdate.C130_lazy_own_file`, `DigitalsurfMeta.C142_no_date`, `DigitalsurfMeta.C142_fails_alone`, `DigitalsurfMeta.C142_fails_zone`, `MerlinFile.C150_fails_row`
* `Quot.sound`, `propext`: `Distributed.C06_assembles`, `Rgb.C08_rgb_roundtrip`, `Rgb.C08_regular_roundtrip`, `Dictionary.C10_set_item`, `Dictionary.C10_add_node`, `Dictionary.C10_history`, `Dictionary.C11_dump_partial`, `Path.C13_overwrite_needs_yes`, `Npy.C15_other_versions`, `Npy.C15_short_file`, `Deprecated.C51_deprecated_partial`, `Deprecated.C51_fails_replacement_without_removal`, `Deprecated.C51_endianess_always_fails`, `Ragged.C17_save_load_partial`, `StoredModels.C20_read`, `StoredModels.C20_last_write_claims_all`, `Blockfile.C24_lazy_eq_partial`, `Msa.C25_header_partial`, `Tvips.C30_undoes_snake_x`, `Tvips.C30_other_snake_mirrored`, `Tvips.C30_fails_snake_y`, `Semper.C32_fails_large`, `Semper.C32_fails_long_title`, `Semper.C32_fails_long_range`, `Mrc.C35_virtual_name`, `Mrc.C36_scan_partial`, `Mrc.C36_movie_partial`, `Mrc.C36_scan_all_one`, `QuantumDetector.C37_shape`, `QuantumDetector.C37_interrupted`, `QuantumDetector.C38_file_frames`, `QuantumDetector.C39_first_partial`, `QuantumDetector.C39_fails_all`, `QuantumDetector.C39_fails_count`, `Jeol.C43_skip`, `Jeol.C43_unique`, `Jeol.C55_square_partial`, `Sfs.C47_fails_empty`, `Sfs.C47_fails_at_end`, `Sfs.C47_fails_unaligned`, `Hypermap.C49_fails_last_channel`, `Hypermap.C49_fails_beyond`, `Hypermap.C49_fails_twice`, `Hypermap.C49_fails_wide`, `Hypermap.C49_fails_size`, `Hypermap.C50_fails_exact`, `Hypermap.C50_fails_small_blocks`, `Hypermap.C56_estimate_partial`, `Hypermap.C56_fails_hot`, `Pantarhei.C53_fails_compressed`, `Pantarhei.C57_lists`, `Pantarhei.C57_lists_removed`, `TofwerkData.C60_fails_metadata`, `TofwerkData.C60_fails_batch`, `TofwerkSum.C61_fails_bump`, `TofwerkSum.C61_fails_negative`, `TofwerkSum.C62_shape`, `TofwerkSum.C62_slices_partial`, `TofwerkSum.C63_accepted`, `TofwerkSum.C63_fails_lazy`, `TofwerkSum.C63_fails_range`, `Tia.C64_header`, `Tia.C64_elements_partial`, `Tia.C65_values`, `Tia.C67_fails_date`, `Digitalsurf.C71_partial`, `Xml.C81_comma`, `Hamamatsu.C84_comment_partial`, `Topspin.C90_date_partial`, `TvipsScan.C95_fails_line`, `Netcdf.C100_rejects`, `Netcdf.C100_fails_image`, `Netcdf.C100_fails_spectrum`, `ImageFile.C101_colours_partial`, `Mrcz.C103_rejects`, `Mrcz.C103_fails_image`, `Mrcz.C103_fails_units`, `Mrcz.C103_fails_offset`, `HspyUpdate.C130_fails_explicit_mode`, `HspyOld.C131_order`, `DMSignal.C133_lazy_colours`, `DMSignal.C133_rejects_short`, `DMSignal.C133_rejects_type`, `Bruker.C137_channels`, `TofwerkFile.C141_time`, `DigitalsurfPost.C170_binary`
* `Classical.choice`, `Quot.sound`, `propext`: `Fei.C01_dense_exact`, `Fei.C02_sum_frames`, `Fei.C03_sparse_eq_dense`, `Fei.C03_sparse_eq_dense_sum`, `Fei.C04_frame_slice`, `Fei.C05_array_stream_roundtrip`, `Distributed.C06_tiling`, `Distributed.C07_positions_partial`, `HeaderArray.C09_header_roundtrip`, `HeaderArray.C09_update`, `Path.C12_incremental_filename`, `Path.C13_existing`, `DateTime.C14_roundtrip_partial`, `DateTime.C14_whole_days_partial`, `DateTime.C14_one_day_late_before_origin`, `DateTime.C14_fails_before_origin`, `Npy.C15_npy_offset`, `Readfile.C16_integer_readers`, `Readfile.C16_read_char`, `Ragged.C17_fails_mixed_types`, `SignalChunks.C19_valid_chunks_partial`, `StoredModels.C20_write_read_partial`, `HierDict.C18_dict_roundtrip_partial`, `HierDict.C18_fails_long_lists`, `HierDict.C18_fails_text_none`, `HierDict.C18_fails_mixed_lists`, `HierDict.C18_fails_large_integers`, `HierDict.C18_fails_nul_character`, `HierDict.C18_fails_bytes`, `HierDict.C18_fails_reserved_keys`, `HierDict.C18_not_same`, `Blockfile.C21_sections`, `Blockfile.C21_writes`, `Blockfile.C22_roundtrip_partial`, `Blockfile.C23_note_partial`, `Msa.C25_metadata`, `Msa.C25_fails_colon`, `Msa.C25_fails_colon_dashes`, `Msa.C25_fails_space_at_64`, `Msa.C25_fails_non_latin`, `Msa.C25_fails_none`, `Msa.C25_fails_unknown_number`, `Msa.C26_write_pure_partial`, `Msa.C26_sequence_partial`, `Msa.C26_fails_second_write`, `Msa.C26_fails_after_sem`, `Ripple.C27_header_partial`, `Ripple.C27_accepted`, `Ripple.C27_selection`, `Ripple.C27_fails_semicolon`, `Ripple.C27_fails_tab`, `Ripple.C27_fails_newline`, `Ripple.C27_fails_misspelling`, `Ripple.C27_data_length_text`, `Ripple.C27_fails_dont_care_depth`, `Ripple.C28_offset`, `Ripple.C28_roundtrip_partial`, `Ripple.C28_dtype`, `Ripple.C28_fails_int16`, `Ripple.C28_fails_single_channel`, `Tvips.C29_frames_partial`, `Tvips.C29_sizes`, `Tvips.C29_numbers`, `Tvips.C29_stack`, `Tvips.C30_permutation`, `Tvips.C30_inside`, `Tvips.C31_rewrite_partial`, `Tvips.C31_history_partial`, `Semper.C32_label_partial`, `Semper.C33_rows_partial`, `Semper.C33_padded_row`, `Semper.C34_axes_partial`, `Mrc.C35_unique`, `Mrc.C35_navigators_partial`, `Mrc.C35_matching_partial`, `Mrc.C35_fails_unsorted_listing`, `Mrc.C35_fails_virtual_external`, `Mrc.C36_scan_sizes`, `Mrc.C36_movie_sizes`, `Mrc.C54_axes_partial`, `QuantumDetector.C37_inside_file`, `QuantumDetector.C37_inside_range_partial`, `QuantumDetector.C38_slice`, `DigitalMicrograph.C40_tree_partial`, `DigitalMicrograph.C40_fails_names`, `DigitalMicrograph.C40_fails_numbered`, `DigitalMicrograph.C40_fails_arrays`, `DigitalMicrograph.C41_skip_partial`, `DigitalMicrograph.C41_keys`, `DMImage.C42_hermitian`, `DMImage.C42_kept`, `DMImage.C42_filled`, `DMImage.C42_new_partial`, `Jeol.C43_read_skip`, `Jeol.C43_frames`, `Jeol.C44_frame_partial`, `Jeol.C45_exact`, `Jeol.C45_error`, `Jeol.C45_never_silent`, `Jeol.C45_no_trace`, `Jeol.C45_sum`, `JeolTree.C46_tree_partial`, `JeolTree.C46_no_end`, `Sfs.C47_piece`, `Sfs.C47_chunks`, `Sfs.C47_table_partial`, `Sfs.C47_compressed`, `Sfs.C48_reachable`, `Sfs.C48_container_partial`, `Sfs.C48_fails_order`, `Sfs.C48_fails_many`, `Sfs.C48_fails_cycle`, `Hypermap.C49_agree_partial`, `Hypermap.C49_twelve`, `Hypermap.C50_compiled_partial`, `Hypermap.C50_python_partial`, `Hypermap.C50_cut_partial`, `Hypermap.C56_counts_partial`, `Pantarhei.C52_default_partial`, `Pantarhei.C52_pickle_partial`, `Pantarhei.C52_written`, `Pantarhei.C52_written_axes`, `Pantarhei.C52_written_types`, `Pantarhei.C52_fails_calibration`, `Pantarhei.C52_fails_spectrum_image`, `Pantarhei.C52_fails_scan`, `Pantarhei.C52_fails_eels`, `Pantarhei.C52_fails_one_spectrum`, `Pantarhei.C52_fails_length_one`, `Pantarhei.C53_stored_partial`, `Pantarhei.C53_elements_partial`, `Pantarhei.C57_axes`, `Pantarhei.C57_order`, `Pantarhei.C57_fails_lists`, `Tofwerk.C58_counts_partial`, `Tofwerk.C58_at_most_once`, `Tofwerk.C58_fails_overlap`, `Tofwerk.C59_same_partial`, `Tofwerk.C59_fails_no_peaks`, `Tofwerk.C59_fails_clock`, `TofwerkData.C60_nominal`, `TofwerkData.C60_additional`, `TofwerkData.C60_raw`, `TofwerkSum.C61_aligned`, `TofwerkSum.C61_increasing_partial`, `TofwerkSum.C61_nonneg_partial`, `TofwerkSum.C62_range`, `Tia.C65_partial`, `Tia.C65_fails_line`, `Tia.C65_fails_no_dimension`, `Tia.C65_fails_three_dimensions`, `Tia.C65_fails_too_many`, `Tia.C66_partial`, `Tia.C66_fails_offset`, `Tia.C66_fails_element`, `Tia.C66_fails_mirror`, `Tia.C67_objects_partial`, `Tia.C67_files_partial`, `Tia.C67_fails_ten`, `Tia.C67_fails_zero`, `Tia.C67_fails_no_object`, `Digitalsurf.C68_written`, `Digitalsurf.C68_read`, `Digitalsurf.C68_compressed`, `Digitalsurf.C68_back`, `Digitalsurf.C68_args`, `Digitalsurf.C68_fails_private`, `Digitalsurf.C69_partial`, `Digitalsurf.C69_fails_large`, `Digitalsurf.C69_fails_constant`, `Digitalsurf.C69_fails_single`, `Digitalsurf.C69_fails_missing`, `Digitalsurf.C69_fails_span`, `Digitalsurf.C70_profile`, `Digitalsurf.C70_spectrum_partial`, `Digitalsurf.C70_spectra_partial`, `Digitalsurf.C70_surface`, `Digitalsurf.C70_map`, `Digitalsurf.C70_profiles`, `Digitalsurf.C70_surfaces`, `Digitalsurf.C70_image`, `Digitalsurf.C70_images_partial`, `Digitalsurf.C70_fails_one_spectrum`, `Digitalsurf.C70_fails_one_channel`, `Digitalsurf.C70_fails_order`, `Digitalsurf.C70_fails_rgb16`, `Digitalsurf.C70_fails_step`, `DigitalsurfComment.C72_partial`, `DigitalsurfComment.C72_ignored`, `DigitalsurfComment.C72_fails_words`, `DigitalsurfComment.C72_fails_equals`, `DigitalsurfComment.C72_fails_number`, `DigitalsurfComment.C72_fails_list`, `DigitalsurfComment.C72_fails_nested`, `DigitalsurfComment.C72_fails_beside`, `DigitalsurfComment.C72_fails_units`, `DigitalsurfComment.C72_fails_underscore`, `Quadstar.C73`, `Quadstar.C73_lazy`, `Quadstar.C73_fails_range`, `Quadstar.C74_partial`, `Quadstar.C74_equidistant`, `Quadstar.C74_fails_uniform`, `Quadstar.C74_fails_backwards`, `Quadstar.C75_partial`, `Quadstar.C75_equidistant`, `Quadstar.C75_fails_labels`, `Quadstar.C75_fails_trailing`, `Quadstar.C76_partial`, `Quadstar.C76_date`, `Quadstar.C76_fails_null`, `Renishaw.C77_partial`, `Renishaw.C77_fails_zero`, `Renishaw.C77_fails_trailing`, `Renishaw.C78_partial`, `Renishaw.C78_fails_array`, `Renishaw.C78_fails_flag`, `Renishaw.C78_fails_wxdm`, `Renishaw.C79_map_partial`, `Renishaw.C79_unfinished`, `Renishaw.C79_line`, `Renishaw.C79_series_partial`, `Renishaw.C79_single`, `Renishaw.C79_mean`, `Renishaw.C79_loads_map`, `Renishaw.C79_loads_series`, `Renishaw.C79_loads_single`, `Renishaw.C79_fails_snake`, `Renishaw.C79_fails_line_unfinished`, `Renishaw.C79_fails_two`, `Renishaw.C79_fails_point`, `Renishaw.C80_map`, `Renishaw.C80_series_partial`, `Renishaw.C80_uniform`, `Renishaw.C80_best`, `Renishaw.C80_signal`, `Renishaw.C80_fails_uneven`, `Renishaw.C80_fails_return`, `Renishaw.C80_fails_time`, `Renishaw.C80_fails_one`, `Renishaw.C80_fails_note`, `Xml.C81_fails_plus`, `Xml.C81_fails_list`, `Xml.C81_fails_attribute`, `Xml.C82_value_partial`, `Xml.C82_ignore`, `Xml.C82_total`, `Xml.C82_default`, `Xml.C82_fails_twice`, `Xml.C82_fails_empty`, `Xml.C82_fails_tails`, `Xml.C82_fails_prefix`, `Xml.C82_fails_type`, `Xml.C83_box_partial`, `Xml.C83_fails_indented`, `Xml.C83_fails_attributes`, `Xml.C83_fails_repeated`, `Xml.C83_fails_error`, `Hamamatsu.C84_fails_bracket`, `Hamamatsu.C84_fails_equals`, `Hamamatsu.C84_fails_empty`, `Hamamatsu.C85_image_partial`, `Hamamatsu.C85_uniform`, `Hamamatsu.C85_types`, `Hamamatsu.C85_fails_column`, `Hamamatsu.C85_fails_long`, `Hamamatsu.C85_fails_wide`, `Hamamatsu.C86_clean`, `Hamamatsu.C86_title`, `Hamamatsu.C86_date`, `Hamamatsu.C86_time_partial`, `Hamamatsu.C86_detector`, `Hamamatsu.C86_spectrometer`, `Hamamatsu.C86_fails_unit`, `Hamamatsu.C86_fails_frames`, `Hamamatsu.C86_fails_mode`, `Hamamatsu.C86_fails_date`, `Hamamatsu.C86_fails_title`, `Hamamatsu.C86_fails_blaze`, `Empad.C87_places`, `Empad.C87_shape`, `Empad.C87_short`, `Empad.C87_loads`, `Empad.C88_axes`, `Empad.C88_pattern`, `Empad.C88_scan`, `Empad.C88_series`, `Empad.C88_date`, `Empad.C88_fails_name`, `Empad.C88_fails_dot`, `Empad.C88_fails_date`, `Topspin.C89_places`, `Topspin.C89_axes`, `Topspin.C89_index_partial`, `Topspin.C89_image_partial`, `Topspin.C89_fails_column`, `Topspin.C89_fails_upwards`, `Topspin.C89_fails_columns`, `Topspin.C89_fails_snake`, `Topspin.C89_fails_image`, `Topspin.C90_metadata_partial`, `Topspin.C90_meta`, `Topspin.C90_datasets`, `Topspin.C90_fails_boolean`, `Topspin.C90_fails_nested`, `Topspin.C90_fails_empty`, `Topspin.C90_fails_afternoon`, `Unpickle.C91_lookups`, `Unpickle.C91_calls`, `Unpickle.C91_rejects`, `Unpickle.C91_plain`, `Unpickle.C91_accepts`, `Unpickle.findClass_iff`, `Dens.C92_loads_partial`, `Dens.C92_days`, `Dens.C92_steps`, `Dens.C92_checked`, `Dens.C92_fails_blank`, `Dens.C92_fails_single`, `Dens.C92_fails_pause`, `Protochips.C93_loads_partial`, `Protochips.C93_steps`, `Protochips.C93_rejects`, `Protochips.C93_fails_user`, `Protochips.C93_fails_comma`, `Protochips.C93_fails_offset`, `Protochips.C93_fails_short`, `Protochips.C93_fails_name`, `Protochips.C93_fails_order`, `Impulse.C94_loads_partial`, `Impulse.C94_valve`, `Impulse.C94_path`, `Impulse.C94_steps`, `Impulse.C94_rejects`, `Impulse.C94_fails_nofile`, `Impulse.C94_fails_offset`, `Impulse.C94_fails_comma`, `Impulse.C94_fails_blank`, `Impulse.C94_fails_valve`, `Impulse.C94_fails_names`, `Impulse.C94_fails_char`, `Impulse.C94_fails_single`, `Impulse.C94_fails_folder`, `TvipsScan.C95_auto_partial`, `TvipsScan.C95_complete`, `TvipsScan.C95_square`, `TvipsScan.C95_axes`, `TvipsScan.C95_stack`, `TvipsScan.C95_fails_after`, `TvipsScan.C95_fails_single`, `Edax.C96_spectrum_partial`, `Edax.C96_header`, `Edax.C96_symbols`, `Edax.C96_lazy_cut`, `Edax.C96_fails_old`, `Edax.C96_fails_cut`, `Edax.C97_map_partial`, `Edax.C97_short`, `Edax.C97_width`, `Edax.C97_fails_channels`, `Edax.C98_line_partial`, `Edax.C98_rejects`, `Edax.C98_fails_single`, `Edax.C98_fails_row`, `Edax.C98_fails_path`, `Edax.C98_fails_lines`, `NumpyFile.C99_roundtrip_partial`, `Netcdf.C100_loads_partial`, `Netcdf.C100_fails_missing`, `ImageFile.C101_axes`, `ImageFile.C101_fails_thin`, `ImageFile.C101_fails_la`, `ImageFile.C101_fails_frames`, `ImageFile.C101_fails_index`, `ImageFile.C101_fails_lazy`, `Arina.C102_frames_partial`, `Arina.C102_scan`, `Arina.C102_rejects`, `Arina.C102_fails_detector`, `Arina.C102_fails_counts`, `Arina.C102_fails_mean`, `Mrcz.C103_roundtrip_partial`, `JobinYvon.C104_scan_partial`, `JobinYvon.C104_fails_single`, `JobinYvon.C104_fails_uneven`, `JobinYvon.C104_fails_axes`, `JobinYvon.C104_fails_short`, `JobinYvon.C104_fails_depth`, `JobinYvon.C105_setup_partial`, `JobinYvon.C105_fails_hole`, `JobinYvon.C105_fails_filter`, `JobinYvon.C105_fails_unnamed`, `JobinYvon.C105_fails_empty`, `Trivista.C106_scan_partial`, `Trivista.C106_windows_partial`, `Trivista.C106_fails_uneven`, `Trivista.C106_fails_place`, `Trivista.C106_fails_windows`, `Trivista.C106_fails_glued_scan`, `Trivista.C106_fails_single`, `Trivista.C106_fails_repeat`, `TrivistaMeta.C107_setup_partial`, `TrivistaMeta.C107_info`, `TrivistaMeta.C107_same`, `TrivistaMeta.C107_hardware`, `TrivistaMeta.C107_fails_groups`, `TrivistaMeta.C107_fails_rename`, `TrivistaMeta.C107_fails_number`, `TrivistaMeta.C107_fails_laser`, `TrivistaMeta.C107_fails_detector`, `TrivistaMeta.C107_fails_grating`, `TrivistaMeta.C107_fails_serial`, `TrivistaMeta.C107_fails_objective`, `TrivistaMeta.C107_fails_time`, `TrivistaMeta.C107_fails_title`, `TrivistaMeta.C107_fails_slit`, `Phenom.C108_signals_partial`, `Phenom.C108_rejects`, `Phenom.C108_line_fails_calibration`, `Phenom.C108_map_fails_rectangular`, `Phenom.C108_picture_fails_missing`, `Phenom.C108_spot_fails_plain`, `Phenom.C108_free_fails_spot`, `Phenom.C108_free_fails_lost`, `Phenom.C108_date_fails_short`, `Phenom.C109_metadata_partial`, `Phenom.C109_msa_fails_acquisition`, `Phenom.C109_line_fails_elements`, `Phenom.C109_xml_fails_repeated`, `Phenom.C109_xml_fails_attributes`, `Delmic.C110_signals`, `Delmic.C110_rejects`, `Delmic.C110_scan_fails_sem`, `Delmic.C110_state_fails_missing`, `Delmic.C110_axis_fails_offset`, `Delmic.C110_labels_fails_repeated`, `Delmic.C111_metadata`, `EmdNcem.C112_roundtrip_partial`, `EmdNcem.C112_fails_navigate`, `EmdNcem.C112_fails_type`, `EmdNcem.C112_fails_empty_units`, `EmdNcem.C112_fails_units`, `EmdNcem.C112_fails_slash`, `EmdNcem.C112_fails_root`, `EmdNcem.C112_fails_depth`, `EmdNcem.C112_fails_cbed`, `EmdNcem.C112_fails_scale`, `EmdNcem.C112_fails_chunks`, `EmdNcem.C112_fails_original`, `EmdNcem.C113_datasets`, `EmdNcem.C113_stacks_partial`, `EmdNcem.C113_rejects`, `EmdNcem.C113_stack_fails_squeeze`, `EmdNcem.C113_stack_fails_zero`, `EmdNcem.C113_stack_fails_same`, `EmdNcem.C113_stack_fails_similar`, `EmdNcem.C113_stack_fails_numbered`, `EmdNcem.C113_find_fails_root`, `EmdNcem.C113_axis_fails_single`, `EmdVelox.C114_file_partial`, `EmdVelox.C114_rejects_select`, `EmdVelox.C114_rejects_frames`, `EmdVelox.C114_rejects_rebin`, `EmdVelox.C114_fails_eels_axes`, `EmdVelox.C114_fails_shape`, `EmdVelox.C114_fails_rebin`, `EmdVelox.C114_fails_uncalibrated`, `EmdVelox.C114_fails_no_pictures`, `EmdVelox.C114_fails_spectra`, `EmdVelox.C114_fails_lazy`, `EmdVelox.C114_fails_channels`, `EmdVelox.C115_metadata_partial`, `EmdVelox.C115_fails_filename`, `EmdVelox.C115_fails_individual`, `EmdVelox.C115_fails_stale_name`, `EmdVelox.C115_fails_zone`, `EmdVelox.C115_fails_no_date`, `Usid.C116_file_partial`, `Usid.C116_path`, `Usid.C116_rejects_path`, `Usid.C116_rejects_uneven`, `Usid.C116_rejects_shape`, `Usid.C116_parameters`, `Usid.C116_fails_documented`, `Usid.C116_fails_measurement`, `Usid.C116_fails_labels`, `Usid.C116_fails_descriptor`, `Usid.C117_roundtrip_partial`, `Usid.C117_attributes`, `Usid.C117_fails_navigate`, `Usid.C117_fails_metadata`, `Usid.C117_fails_single`, `Usid.C117_fails_order`, `Usid.C117_fails_keys`, `Usid.C117_fails_units`, `Tiff.C118_axes_partial`, `Tiff.C118_unreadable`, `Tiff.C118_data`, `Tiff.C118_reads`, `Tiff.C118_rejects`, `Tiff.C118_fails_exchanged`, `Tiff.C118_fails_unnamed`, `Tiff.C118_fails_imagej_units`, `Tiff.C118_fails_jeol_forced`, `Tiff.C118_fails_planar`, `Tiff.C119_image_partial`, `Tiff.C119_stack_partial`, `Tiff.C119_fails_small`, `Tiff.C119_fails_latin1`, `Tiff.C119_fails_mixed`, `Tiff.C119_fails_no_units`, `Tiff.C119_fails_ascii`, `Tiff.C119_fails_spectrum`, `Tiff.C120_original`, `Tiff.C120_date_partial`, `Tiff.C120_other_date`, `Tiff.C120_no_date`, `Tiff.C120_intensity`, `Tiff.C120_title_partial`, `Tiff.C120_jeol_date`, `Tiff.C120_mapping`, `Tiff.C120_mapping_jeol`, `Tiff.C120_filename`, `Tiff.C120_fails_date`, `Tiff.C120_fails_scanned`, `Tiff.C121_axes_partial`, `Tiff.C121_linear`, `Tiff.C121_description_partial`, `Tiff.C121_reads`, `Tiff.C121_fails_comma`, `Tiff.C121_fails_series`, `Nexus.C122_signals_partial`, `Nexus.C122_default`, `Nexus.C122_list`, `Nexus.C122_reject`, `Nexus.C122_fails_external`, `Nexus.C122_fails_target`, `Nexus.C122_fails_texts`, `Nexus.C122_fails_single`, `Nexus.C122_fails_part`, `Nexus.C122_fails_key`, `Nexus.C122_fails_empty`, `Nexus.C123_axes_partial`, `Nexus.C123_plain`, `Nexus.C123_fails_descending`, `Nexus.C123_fails_values`, `Nexus.C123_fails_tolerance`, `Nexus.C123_fails_order`, `Nexus.C123_fails_same`, `Nexus.C123_fails_dot`, `Nexus.C123_fails_beside`, `Nexus.C123_fails_none`, `Nexus.C124_write_read_partial`, `Nexus.C124_fails_negative`, `Nexus.C124_fails_one`, `Nexus.C124_fails_unnamed`, `Nexus.C124_fails_values`, `Nexus.C124_fails_three`, `Nexus.C124_fails_data`, `Nexus.C124_fails_letters`, `Nexus.C124_fails_space`, `Nexus.C124_fails_title`, `Nexus.C124_fails_slash`, `Nexus.C124_fails_ten`, `Nexus.C124_fails_default`, `Nexus.C125_metadata_partial`, `Nexus.C125_fails_general`, `Nexus.C125_fails_keys`, `Nexus.C125_fails_list`, `Nexus.C125_fails_none`, `Nexus.C125_fails_numpy`, `Nexus.C125_fails_value`, `Nexus.C125_fails_only`, `Nexus.C125_fails_space`, `Nexus.C125_fails_dicts`, `Nexus.C125_fails_structure`, `JeolEds.C126_file_partial`, `JeolEds.C126_fails_no_lines`, `JeolEds.C126_fails_first`, `JeolEds.C126_fails_no_parameters`, `JeolEds.C126_fails_long_name`, `JeolPts.C127_events`, `JeolPts.C127_sum`, `JeolPts.C127_frames`, `JeolPts.C127_all`, `JeolPts.C127_axes_partial`, `JeolPts.C127_frame_axis_partial`, `JeolPtsFails.C127_fails_frame_list`, `JeolPtsFails.C127_fails_frame_time`, `JeolPtsFails.C127_fails_origin`, `JeolPtsFails.C127_fails_image_axes`, `JeolPtsFails.C127_fails_cutoff`, `JeolPtsFails.C127_fails_sweeps`, `JeolPtsFails.C127_fails_shift_list`, `JeolAsw.C128_archive`, `JeolAsw.C128_reader`, `JeolAsw.C128_skipped`, `JeolAsw.C128_not_archive`, `JeolAsw.C128_image_partial`, `JeolAsw.C128_not_image`, `JeolAsw.C128_fails_short`, `JeolAsw.C128_fails_long`, `JeolAsw.C128_fails_missing_file`, `HspyFile.C129_file`, `HspyFile.C129_hspy`, `HspyFile.C129_zspy`, `HspyFails.C129_group_name`, `HspyOld.C129_empty`, `HspyFails.C129_fails_unnamed`, `HspyUpdate.C130_update_partial`, `HspyUpdate.C130_original_path`, `HspyFails.C130_fails_removed`, `HspyFails.C130_fails_changed_kind`, `HspyFails.C130_fails_changed_title`, `HspyOld.C131_version`, `HspyOld.C131_current`, `HspyOld.C131_before_1_1`, `HspyOld.C131_results`, `HspyOld.C131_before_1_2`, `HspyOld.C131_microscope`, `HspyOld.C131_before_3_0`, `HspyOld.C131_before_3_0_moved`, `HspyOld.C131_before_3_0_only`, `HspyOld.C131_upgrade`, `HspyOld.C131_read`, `HspyFails.C131_fails_detectors_lost`, `HspyFails.C131_fails_sections_replaced`, `HspyFails.C131_fails_two_exposures`, `DMSignal.C132_axes_partial`, `DMSignal.C132_fails_xray_energy`, `DMSignal.C132_fails_more_calibrations`, `DMSignal.C133_pixels_partial`, `DMSignal.C133_lazy`, `DMSignal.C133_order`, `DMSignal.C133_rejects_count`, `DMSignal.C133_rejects_more`, `DMSignal.C133_packed`, `DMSignal.C133_images`, `DMSignal.C133_file`, `DMSignal.C133_no_images`, `DMSignal.C133_fails_big_endian`, `DMSignal.C134_mode`, `DMSignal.C134_quantity`, `DMSignal.C134_exposure`, `DMSignal.C134_microscope`, `Bruker.C135_maps_partial`, `Bruker.C135_cutoff`, `Bruker.C135_reads`, `Bruker.C135_rejects_index`, `Bruker.C135_rejects_zero`, `Bruker.C135_indexes`, `Bruker.C135_fails_width_scale`, `Bruker.C135_fails_ten`, `Bruker.C135_fails_two_lines`, `Bruker.C135_fails_auto_enlarges`, `Bruker.C136_base64`, `Bruker.C136_images_partial`, `Bruker.C136_rejects_size`, `Bruker.C136_select`, `Bruker.C136_fails_no_unnamed`, `Bruker.C136_fails_overviews`, `Bruker.C136_fails_blank`, `Bruker.C137_spectrum_partial`, `Bruker.C137_dates`, `Bruker.C137_rejects_dates`, `Bruker.C137_fails_no_date`, `Bruker.C137_fails_no_life_time`, `Bruker.C137_fails_name`, `Bruker.C137_fails_one_element`, `MrcFile.C138_reads_partial`, `MrcFile.C138_rejects_mode`, `MrcFile.C138_rejects_short`, `MrcFile.C138_rejects_header`, `MrcFile.C138_fails_big_endian`, `MrcFile.C138_fails_no_navigation`, `MrcFile.C139_scan_partial`, `MrcFile.C139_given`, `MrcFile.C139_custom_partial`, `MrcFile.C139_movie_partial`, `MrcFile.C139_positions_partial`, `MrcFile.C139_lines_partial`, `MrcFile.C139_rejects_positions`, `MrcFile.C139_fails_equals`, `MrcFile.C139_fails_repeats`, `MrcFile.C139_fails_line`, `MrcFile.C139_fails_sum`, `TofwerkFile.C140_reads_partial`, `TofwerkFile.C140_rejects`, `TofwerkFile.C140_titles`, `TofwerkFile.C140_fails_writes`, `TofwerkFile.C140_fails_segments`, `TofwerkFile.C140_fails_fill`, `TofwerkFile.C140_fails_images`, `TofwerkFile.C140_fails_offset`, `TofwerkFile.C141_masses`, `TofwerkFile.C141_pixel_partial`, `TofwerkFile.C141_channels_partial`, `TofwerkFile.C141_clock_partial`, `TofwerkFile.C141_fails_pixel`, `TofwerkFile.C141_fails_channels`, `TofwerkFile.C141_fails_values`, `TofwerkFile.C141_fails_interval`, `DigitalsurfMeta.C142_date`, `DigitalsurfMeta.C142_time_partial`, `DigitalsurfMeta.C142_unknown`, `DigitalsurfMeta.C142_others`, `DigitalsurfMeta.C142_back_partial`, `DigitalsurfMeta.C142_quantity`, `DigitalsurfMeta.C142_brackets`, `DigitalsurfMeta.C142_quantity_partial`, `DigitalsurfMeta.C142_fails_midnight`, `DigitalsurfMeta.C142_fails_words`, `DigitalsurfMeta.C142_fails_year`, `DigitalsurfMeta.C143_parsable`, `DigitalsurfMeta.C143_auto_partial`, `DigitalsurfMeta.C143_back_partial`, `DigitalsurfMeta.C143_fails_empty`, `DigitalsurfMeta.C143_fails_underscore`, `DigitalsurfMeta.C144_quantities_partial`, `DigitalsurfMeta.C144_singles`, `DigitalsurfMeta.C144_stage`, `DigitalsurfMeta.C144_other`, `DigitalsurfMeta.C144_fails_exposure`, `DigitalsurfMeta.C144_fails_blaze`, `ImageWrite.C145_plain`, `ImageWrite.C145_figure_partial`, `ImageWrite.C145_refused`, `ImageWrite.C145_fails_equal`, `ImageWrite.C145_fails_capitals`, `ImageWrite.C145_fails_stack`, `ImageWrite.C146_bar`, `ImageWrite.C146_refused`, `ImageWrite.C146_no_library`, `ImageWrite.C146_alone_partial`, `ImageWrite.C146_fails_dimension`, `PantarheiMeta.C147_numbers`, `PantarheiMeta.C147_texts`, `PantarheiMeta.C147_back_partial`, `PantarheiMeta.C147_fails_title`, `PantarheiMeta.C147_fails_date`, `PantarheiMeta.C147_fails_type`, `PantarheiMeta.C147_fails_aperture`, `PantarheiMeta.C147_fails_mode`, `PantarheiMeta.C147_fails_changed`, `MerlinFile.C148_header`, `MerlinFile.C148_hdr_partial`, `MerlinFile.C148_fails_kind`, `MerlinFile.C148_fails_capitals`, `MerlinFile.C148_fails_folder`, `MerlinFile.C149_trigger`, `MerlinFile.C149_times_partial`, `MerlinFile.C149_even`, `MerlinFile.C149_fails_jitter`, `MerlinFile.C149_fails_zero`, `MerlinFile.C150_images_partial`, `TiaMeta.C151_values_partial`, `TiaMeta.C151_mapped`, `TiaMeta.C151_microscope`, `TiaMeta.C151_fails_blank`, `TiaMeta.C151_fails_empty`, `TiaMeta.C151_fails_exposure`, `TiaMeta.C151_fails_position`, `TiaMeta.C151_fails_true_image`, `TiaMeta.C152_units`, `TiaMeta.C152_default`, `TiaMeta.C152_fails_info`, `RippleFile.C153_axes_partial`, `RippleFile.C153_fails_column`, `RippleFile.C153_fails_stack`, `RippleFile.C153_fails_single`, `RippleFile.C154_metadata_partial`, `RippleFile.C154_fails_sem`, `RippleFile.C154_fails_eds`, `RippleFile.C154_fails_tilt`, `RippleFile.C154_fails_other`, `RippleFile.C155_inca_partial`, `RippleFile.C155_fails_order`, `RippleFile.C155_fails_title`, `BlockfileScale.C156_file_partial`, `BlockfileScale.C156_refused`, `BlockfileScale.C156_integers`, `BlockfileScale.C156_fails_reversed`, `BlockfileScale.C156_fails_constant`, `BlockfileScale.C156_fails_wrap`, `BlockfileScale.C157_image_partial`, `BlockfileScale.C157_refused`, `BlockfileScale.C157_fails_line`, `BlockfileScale.C157_fails_line_array`, `BlockfileScale.C157_fails_stored`, `BlockfileScale.C158_scales_partial`, `BlockfileScale.C158_mapped`, `BlockfileScale.C158_fails_twice`, `BlockfileScale.C158_fails_line`, `BlockfileScale.C158_fails_large`, `BlockfileScale.C158_fails_two`, `BlockfileScale.C158_fails_camera`, `RenishawMeta.C159_date_partial`, `RenishawMeta.C159_texts`, `RenishawMeta.C159_fails_second`, `RenishawMeta.C159_fails_end`, `RenishawMeta.C160_laser_partial`, `RenishawMeta.C160_grating`, `RenishawMeta.C160_detector_partial`, `RenishawMeta.C160_fails_wavenumber`, `RenishawMeta.C160_fails_lasers`, `RenishawMeta.C160_fails_matched`, `RenishawMeta.C161_marker_partial`, `RenishawMeta.C161_fails_line`, `RenishawMeta.C161_fails_unfinished`, `TvipsMeta.C162_pixels_partial`, `TvipsMeta.C162_fails_pixel`, `TvipsMeta.C162_fails_fine`, `TvipsMeta.C162_fails_negative`, `TvipsMeta.C162_fails_single`, `TvipsMeta.C162_fails_mode`, `TvipsMeta.C162_fails_units`, `TvipsMeta.C163_times_partial`, `TvipsMeta.C163_fails_zone`, `TvipsMeta.C163_fails_fraction`, `TvipsMeta.C163_fails_fine`, `TvipsMeta.C164_stage_partial`, `TvipsMeta.C164_fails_tilt`, `TvipsMeta.C164_fails_defocus`, `TvipsMeta.C164_fails_camera`, `TvipsMeta.C164_fails_both`, `TvipsMeta.C164_fails_energy`, `TiffMapping.C165_fei_partial`, `TiffMapping.C165_fei_date`, `TiffMapping.C165_fei_found`, `TiffMapping.C165_zeiss_partial`, `TiffMapping.C165_tvips`, `TiffMapping.C165_time_partial`, `TiffMapping.C165_jeol`, `TiffMapping.C165_fails_stage`, `TiffMapping.C165_fails_energy`, `TiffMapping.C165_fails_unitless`, `TiffMapping.C165_fails_magnification`, `TiffMapping.C165_fails_hour`, `TiffMapping.C165_fails_day`, `PhenomMapping.C166_values`, `PhenomMapping.C166_energy_partial`, `PhenomMapping.C166_found`, `PhenomMapping.C166_file`, `PhenomMapping.C166_fails_unit`, `PhenomMapping.C166_fails_position`, `PhenomMapping.C166_fails_empty`, `TvipsNames.C167_written`, `TvipsNames.C167_first`, `TvipsNames.C167_rejects`, `TvipsNames.C167_parts_partial`, `TvipsNames.C167_frames_partial`, `TvipsNames.C167_fails_stale`, `TvipsNames.C167_fails_bare`, `TofwerkMeta.C168_numbers`, `TofwerkMeta.C168_texts`, `TofwerkMeta.C168_beam_partial`, `TofwerkMeta.C168_pressure`, `TofwerkMeta.C168_reads`, `TofwerkMeta.C168_once`, `TofwerkMeta.C168_original_partial`, `TofwerkMeta.C168_fails_beam`, `TofwerkMeta.C168_fails_version`, `TofwerkMeta.C168_fails_array`, `TofwerkMeta.C168_fails_segments`, `TofwerkMeta.C168_fails_name`, `ExifNames.C169_tags_partial`, `ExifNames.C169_only`, `ExifNames.C169_none`, `ExifNames.C169_fails_unknown`, `ExifNames.C169_fails_same`, `DigitalsurfPost.C170_colours_partial`, `DigitalsurfPost.C170_reads`, `DigitalsurfPost.C170_fails_limit`, `DigitalsurfPost.C170_fails_negative`, `DigitalsurfPost.C170_fails_fraction`, `DigitalsurfPost.C170_fails_dark`, `RenishawNested.C171_nested_partial`, `RenishawNested.C171_fails_clash`, `RenishawNested.C171_fails_gap`, `MrcFei.C172_metadata_partial`, `MrcFei.C172_original`, `MrcFei.C172_pixel`, `MrcFei.C172_none`, `MrcFei.C172_fails_single`, `MrcFei.C172_fails_cut`, `MrcFei.C172_fails_units`, `IsoDate.C173_utc`, `IsoDate.C173_named`, `IsoDate.C173_own`, `IsoDate.C173_offset_partial`, `IsoDate.C173_rejects`, `IsoDate.C173_texts_partial`, `IsoDate.C173_back_partial`, `IsoDate.C173_fails_abbreviation`, `IsoDate.C173_fails_own_zone`
