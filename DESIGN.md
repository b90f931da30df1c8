# Formal model of karabo_data in Lean 4

## Layout

| Path | Content |
|---|---|
| `lean/Verif/Model/*.lean` | the model, one Lean function per Python function, each citing file and lines |
| `lean/Verif/Spec/*.lean`  | small independent specifications (what a user would say) |
| `lean/Verif/Lemmas/*.lean`| helper lemmas |
| `lean/Verif/Props/*.lean` | the property theorems, with examples showing their hypotheses are met |
| `properties.jsonl`, `MANIFEST.json` | English properties, and which theorems prove them |
| `AXIOMS.md` | the axioms of each theorem in the manifest, as printed by Lean |
| `seeded/LOG.jsonl` | wrong programs tried against the theorems |

Names: a theorem ending in `_partial` proves part of a property, one ending in `_wrong` (and a few with other endings, named in the
manifest notes) is a concrete execution for which the property as stated is false of the code.

## Modelling conventions

* Python exceptions are values: a function that can raise returns `Except PyErr α` (written `R α`). Text of messages is dropped.
* Python `str` is `List Char`. Train IDs, counts and offsets are `Nat`; where unsigned 64-bit wrap-around
  matters (old index format, negative pulse numbers, index validation) `BitVec 64` is used instead.
* A Python dict is an insertion-ordered association list. A Python set is a list observed only through
  membership; where code iterates over a set and order can be observed, the theorem is for every order.
* The contents of one entry (row) of a dataset is an arbitrary type `V`: no theorem depends on what a row is.
* HDF5 files are values (the content a read would find). h5py, numpy, pandas, xarray, dask and zmq are not
  modelled (the bytes of msgpack are, after its specification); the operations used are replaced by their documented list-level meaning
  (slicing, boolean masks, `np.repeat`, `np.cumsum`, `np.unique`, `np.nonzero`, concatenation).
* Histories (caches, cache files on disk, streaming threads, widgets) are step machines; theorems are by induction over steps.
* Geometry uses exact numbers (an arbitrary linearly ordered field with floor, or the integers after snapping), not floats.

## Trusted base

* Lean 4.33.0's kernel, and the axioms `propext`, `Classical.choice`, `Quot.sound`: no theorem depends on others, and `AXIOMS.md` lists
  them theorem by theorem. There are no own axioms, no `sorry`, no `native_decide` or `bv_decide`.
* That the model matches the Python code. It was read as text and not run; every definition cites its lines.
* The documented behaviour of Python's standard library and of the packages listed above.

### What is modelled

| File in /repo/karabo_data | Model | Not modelled |
|---|---|---|
| `reader.py` | `FileAccess`, `Collection` (all of `FileAccess`, `DataCollection`, `TrainIterator`, `H5File`, `RunDirectory`, `open_run`; paths in `Names`, text of `info` in `InfoText`) | regions of interest with several lists, arrays or masks, or None (integers, slices and ellipses are in `Roi`, one list of indices in `RoiList`, one mask in `RoiMask`) |
| `read_machinery.py` | `ReadMachinery`, `Glob`, `Names` | |
| `run_files_map.py` | `FilesMap`, `FilesMapHistory`, `AtomicDump`, `Json` (the text) | power failures other than a file cut short |
| `writer.py` | `Writer` | HDF5 storage options; h5py's file format |
| `validation.py` | `Validation`, `RunValidation`, `ValidateMain` | argparse |
| `h5index.py` | `H5Index` | argparse; soft links |
| `stacking.py` | `Stacking`, `NdArray` | conversion of the fill value to a dtype (a parameter) |
| `components.py` | `Components` | pandas' and xarray's own operations (unstacking is a function on labels) |
| `write_cxi.py` | `Cxi`, `CxiDisk`, `CxiTree` | compression, storage options, types |
| `export.py` | `Stream`, `Msgpack` and `MsgpackNumpy` (the bytes) | structured arrays in protocol 1.0; zmq is a network which may lose or delay messages |
| `geometry2/__init__.py` | `Geometry`, `Plot` | matplotlib (what it is given is modelled), float rounding |
| `geometry2/crystfel_fmt.py` | `CrystFEL`, `CrystFELText` | how a float is written (a parameter); cfelpyutils' reader |
| `geometry.py` (deprecated) | `OldGeometry`, `Plot` | matplotlib |
| `utils.py` | `QuickView`, `H5Tools` | matplotlib, fabio |
| `lsxfel.py` | `LsXfel`, `LsText` (the line for a run) | wording of other messages |
| `cli/make_virtual_cxi.py` | `VirtualCxiCli` | argparse |
| `exceptions.py` | `Py` (kinds of exceptions) | text |

Floating point rounding in geometry, drawing by matplotlib and wording of messages cannot be expressed in this model.

## Plan per property

For each property: what is modelled and how it is proved. Where the property is false of the code, a concrete execution is proved and the
rest is in a `_partial` theorem; the notes in `MANIFEST.json` say what is missing.

| | Property | What is modelled, and how it is proved | Theorems in | Status |
|---|---|---|---|---|
| C01 | Train IDs of a file line up with its data index | `FileAccess.__init__` as a function from raw file content; list lemmas on filtering zeros | Props/Open | proved |
| C02 | Old first/last/status indexes give the right counts | the conversion of first/last/status on `BitVec 64`; arithmetic with wrap-around | Props/Open | proved |
| C03 | Source names are parsed from file metadata | metadata as strings; splitting at slashes, by induction over the list | Props/Open | proved |
| C04 | The keys of a source are exactly its datasets | datasets as paths of a tree; the listing and the lookup are related path by path | Props/Open, Props/KeysForSource | partial |
| C05 | Index and key caching is invisible | the caches as a state machine over requests; invariant: what is cached is what a fresh read would give | Props/Open | proved |
| C06 | Closing a collection does not break derived collections | the same machine with close and reopen events | Props/Open | proved |
| C07 | Train IDs of a collection are sorted and unique | constructor of collections as folds; sorting and deduplication of train IDs | Props/Construct | proved |
| C08 | Conflicting data is detected exactly | the conflict check at construction, with completeness over pairs of files; invariant over all reachable collections | Props/Construct | proved |
| C09 | The sources of a collection are the selected sources present in its files | membership of sources in files and selection | Props/Construct | proved |
| C10 | Unreadable files are skipped, and only those | `from_paths` as a fold with per-file outcomes; induction over the list of paths | Props/Construct, Props/FilesMapErrors | proved |
| C11 | Glob patterns mean what the documentation says | `fnmatch` translated to tokens and a matcher; specified as a splitting of the name into pieces | Props/GlobAll, Props/Glob | proved |
| C12 | select() with globs picks exactly the matching data | glob selection as membership of (source, key); characterised for all selections | Props/Selection | proved |
| C13 | Selecting never brings back data | induction over any number of select operations; two witnesses where it is false | Props/Selection, Props/SelectAll | partial |
| C14 | select() with a dict picks exactly what it names | dict selection as membership; witness for empty key sets | Props/Selection | partial |
| C15 | deselect() is the complement of select() | complement of memberships; witness for keys which do not exist | Props/Selection, Props/SelectAll | partial |
| C16 | Selections merge as unions | merging of selections as unions of memberships; permutations and groupings | Props/Selection | proved |
| C17 | union() joins data regardless of order | `union` as folds over collections; independence of order by membership | Props/SelectData | proved |
| C18 | Slicing trains by ID | Python slices as index arithmetic on the list of train IDs, specified by membership; witness for a bound in a gap | Props/Trains | partial |
| C19 | Slicing trains by index | `slice.indices` as arithmetic, for positive, negative and zero steps | Props/Trains | proved |
| C20 | Selecting a list of train IDs | intersection of lists, order kept | Props/Trains | proved |
| C21 | Selecting a list of train indexes | integer arrays as indexes with wrap-around and errors | Props/Trains | proved |
| C22 | Selecting trains loses no data of the kept trains | relation between collections before and after; preservation and commutation | Props/SelectData | proved |
| C23 | Runs of selected trains are found exactly | `contiguous_regions` on lists of booleans; exact, covering and maximal runs | Props/Trains | proved |
| C24 | get_array returns exactly the selected data | data chunks, reading and concatenation; equality with the entries of the selected trains, labelled | Props/Arrays | proved |
| C25 | get_array is in train order | sorting of chunks by first train; chunks are maximal runs of selected trains, so labels are in order exactly if no two files have runs in the wrong order; witness for interleaved files | Props/ArrayOrder, Props/OrderGaps, Props/Arrays | partial |
| C26 | Reading an unknown field fails cleanly | membership tests before reading, for each method | Props/Arrays, Props/DaskErrors | partial |
| C27 | Files with different shapes or types are refused | shapes and types of entries as values; the error is characterised | Props/Arrays | proved |
| C28 | train_from_id returns exactly one train's data | dict building over sources and keys; exact result for one train | Props/OneTrain | partial |
| C29 | Iterating trains agrees with reading them one at a time | iterator as a fold; equality with train_from_id, train by train | Props/Iterate, Props/IterateKeys | proved |
| C30 | require_all skips exactly the incomplete trains | the same iterator with the skipping test | Props/Iterate | proved |
| C31 | train_from_index is train_from_id of the n-th train | Python indexing with wrap-around | Props/OneTrain | proved |
| C32 | get_data_counts matches get_array | counts per train as sums over chunks | Props/Series | proved |
| C33 | get_series returns exactly the selected data | labels and values of a series, with multi-index | Props/Series | proved |
| C34 | get_dask_array equals get_array | lazy chunks: same concatenation; sizes of pieces | Props/Dask, Props/Arrays | partial |
| C35 | Dataframe columns | columns by pattern selection | Props/Series | proved |
| C36 | Written indexes are correct | `_generate_index` on lists; counts and cumulative sums; the assertion on unsigned differences on `BitVec 64` | Props/WriteIndex | proved |
| C37 | Writing then reading gives the data back | writer to file content, then the reader's functions on that content; round trip, and success | Props/Writer, Props/WriteSucceeds, Props/WriteOrder | partial |
| C38 | A written file never gives data to the wrong train | the same round trip, for files in any order: labels are sorted when written, entries are not; three witnesses where labels go wrong | Props/Writer, Props/WriteOrder | partial |
| C39 | Virtual files equal copied files | virtual datasets as maps to source datasets; equality with the copy | Props/Writer, Props/VirtualSucceeds | partial |
| C40 | Written files pass validation | validator on the written content | Props/Validation, Props/ValidationVirtual | proved |
| C41 | Index validation is exact | index checks on `BitVec 64` and floats rounded to 53 bits; exactness inside these limits, witnesses outside | Props/Validation, Props/ValidationDoubles | partial |
| C42 | Train ID validation is exact | comparison of train IDs; exact report | Props/Validation | proved |
| C43 | Validating a run reports instead of crashing | run validator over the cache; exact report, witnesses where it raises | Props/RunValidation, Props/Validation | partial |
| C44 | Outdated cache entries are not used | entries compared with stat of files | Props/FilesMap, Props/FilesMapErrors | proved |
| C45 | Opening with the cache equals opening without | any number of processes, file replacements and crashes as a step machine; invariant on cache entries | Props/FilesMapHistory, Props/FilesMap, Props/LoneProcess | partial |
| C46 | The cache file is never seen half-written | any number of writers and readers, each file system call a step; invariant on what is at the path | Props/AtomicDump | proved |
| C47 | Saving the cache | saving then loading, over candidate places | Props/FilesMap | partial |
| C48 | Cache locations | regular expression of run paths; candidate places | Props/FilesMap | proved |
| C49 | Detector modules are stacked in their place | arrays with shapes and index functions; value at every index | Props/Stacking | proved |
| C50 | Bad detector data is refused | all errors of the stacking function, exactly | Props/Stacking | partial |
| C51 | The array-like view equals the real array | the view class with all index forms, against the stacked array | Props/StackViews | partial |
| C52 | Reading a stack view never changes it | the view as a state machine over reads; invariant, witness | Props/StackViews | partial |
| C53 | stack_data order | concatenation of trains in order | Props/Stacking | proved |
| C54 | Pulse selections are normalised or refused | normalisation of pulse arguments, `uint64` casts | Props/PulseSelection | partial |
| C55 | Selecting pulses by index | `get_array` for positions, label by label, for every file layout | Props/DetArray, Props/DetSuccess, Props/DetIterate, Props/DetIterKeys, Props/DetRuns | partial |
| C56 | Selecting pulses by ID | `get_array` and iteration for IDs | Props/DetArray, Props/DetSuccess, Props/DetIterate, Props/DetIterKeys, Props/DetRuns | partial |
| C57 | Detector arrays agree with detector iteration | equality of labels and values of both ways | Props/DetIterate, Props/DetRuns, Props/DetIterKeys, Props/DetIterSuccess | partial |
| C58 | min_modules | trains with enough modules | Props/DetInit | proved |
| C59 | Splitting trains into consecutive chunks | splitting into runs, uniqueness | Props/DetSources | proved |
| C60 | Detector frames are labelled with their train | labels of frames against the index of files | Props/DetArray, Props/DetSuccess, Props/DetRuns | partial |
| C61 | Module numbers identify sources | regular expressions for sources; sorting and duplicates | Props/DetSources | proved |
| C62 | CXI files put every frame in its place | layouts as maps from cells to source cells; induction over chunks | Props/Cxi, Props/CxiGaps | proved |
| C63 | CXI pulse IDs are consistent | the pulse ID check over modules | Props/Cxi, Props/CxiPulses | partial |
| C64 | Streaming delivers trains in order, once | threads, clients, sockets and losses as a step machine; invariant linking feeds and replies | Props/Stream | proved |
| C65 | The stream buffer is bounded | the same machine; bound on the buffer | Props/Stream | proved |
| C66 | Stopping a stream delivers what was fed | the same machine with stop; witnesses | Props/Stream, Props/ServeStream | partial |
| C67 | Stream messages decode to the data | serialisation to parts, decoding by the protocol in Spec/Stream | Props/StreamMessage, Props/StreamErrors | proved |
| C68 | Dummy timestamps | the timestamp function, with its effects on the arguments | Props/StreamMessage | partial |
| C69 | Command line selection is honoured | `serve_files` and the command line program | Props/Serve | partial |
| C70 | Tiles partition a module | regions of tiles, arithmetic | Props/Tiles | proved |
| C71 | Splitting data agrees with tile regions | `np.split` on rows and columns | Props/Tiles | proved |
| C72 | Data coordinates map to the right tile | coordinates in an ordered field with floor | Props/Tiles | proved |
| C73 | Snapped tiles keep their orientation | snapping of a tile to the grid; 8 orientations | Props/Assemble, Lemmas/Assemble | proved |
| C74 | The assembled image contains all tiles | bounds over all tiles, minimum and maximum by induction | Props/Assemble | proved |
| C75 | Assembling loses no pixel | assignment of tiles one after the other; induction, no overlap | Props/Assemble, Props/Overlap | proved |
| C76 | Pixel positions agree with coordinate conversion | pixel positions and corners in a field | Props/Positions, Props/Interpolate | proved |
| C77 | CrystFEL geometry round trip | panel lines of the file, read back | Props/CrystFEL | partial |
| C78 | Rigid groups | `np.array_split` and names | Props/CrystFEL | proved |
| C79 | Distortion array | distortion array from corners | Props/Positions | proved |
| C80 | Quadrant positions in other units | scaling by units; witness | Props/Quads | partial |
| C81 | Quadrant geometry has no overlaps | distances between tiles; linear arithmetic | Props/Quads | proved |
| C82 | Old and new LPD code split modules alike | both splitting functions on row lists | Props/Tiles | partial |
| C83 | Proposal and run numbers | formatting of numbers, glob in the data root | Props/Names | partial |
| C84 | QuickView position stays valid | the widget as a state machine over operations; invariants | Props/QuickView | partial |
| C85 | File names are understood | parsing of file names | Props/Names | proved |
| C86 | Slice objects print as written | text of expressions and a reader of that text; round trip | Props/SliceRepr | partial |
| C87 | info and train_info report what is there | info functions as computations on collections | Props/Info | partial |
| C88 | Geometry files of LPD and DSSC | positions read from HDF5 groups | Props/GeomFiles | proved |
| C89 | Inverting an LPD geometry file | tree of groups, copying with negated positions | Props/GeomFiles | partial |
| C90 | Interpolated assembling has room for all tiles | bounds of interpolated output | Props/Interpolate | proved |
| C91 | Interpolated assembling shows pixels where they are | lookup coordinates; witnesses | Props/Interpolate, Props/InterpolateImage | partial |
| C92 | Deprecated LPD geometry places tiles where the file says | placing of tiles by the deprecated class | Props/OldGeometry | partial |
| C93 | lsxfel counts a run | folder listing, groups of segments, counts; permutation of the listing | Props/LsXfel | partial |
| C94 | lsxfel says what it found | output lines and exit code as values; all argument lists | Props/LsXfel | partial |
| C95 | make-virtual-cxi writes only where it should | paths as text, access checks, choice of detector | Props/VirtualCxiCli | partial |
| C96 | The validation command reports every problem and signals it | report as a list of lines, a reader for it in the specification, exit status from the list of problems | Props/ValidateMain, Props/RunReport | proved |
| C97 | h5index lists every dataset once | trees of groups and datasets by mutual recursion; a reader for CSV in the specification | Props/H5Index | proved |
| C98 | Written files name their sources | list of sources of the writer, split at the slash | Props/Metadata | proved |
| C99 | hdf5_paths prints every name | trees of groups and datasets by mutual recursion | Props/H5Tools | partial |
| C100 | Conversion to CBF writes the image asked for | search in the list of sources, h5py indexing | Props/H5Tools | proved |
| C101 | plot_data_fast shows every pixel where it is | the extent given to the drawing library, edges of cells by interpolation in the extent; bound by the centre and size of the assembled image | Props/Plot | partial |
| C102 | inspect draws every tile where it is | outlines, lines and texts as data; corners from the definition of a point of a tile | Props/Plot | proved |
| C103 | compare shows the displacement of every tile | arrows and texts as data; limits as least and greatest coordinate drawn | Props/Plot | proved |
| C104 | Plots of the deprecated LPD geometry | as C101 and C102, on the model of the deprecated geometry | Props/Plot | partial |
| C105 | Data which passes validation is read right | success of all checks gives readable keys, index and dataset, and with C41 the valid fields of C24; for runs the entries of the cache agree with the files | Props/Validated | partial |
| C106 | A region of interest is a selection from the whole array | numpy indexing of arrays with any number of dimensions against h5py's selection item by item; reading chunk by chunk commutes with the selection | Props/Roi, Props/ArrayMap | proved |
| C107 | Data stays right through any history of selections and unions | induction over an inductive relation of collections derived from one; files kept by each step; the exactness theorems of C24, C28, C32, C33 | Props/History, Props/DerivedGaps, Props/HistoryGaps | proved |
| C108 | A run directory is the union of its files | the default selections of single files merge to the default selection of all; conflicts of a union are pairwise | Props/OpenUnion | proved |
| C109 | Rows of a dataframe line up | model of pd.concat(axis=1) as union of labels and lookup; induction over the columns; exactness of get_series (C33) | Props/Frame | proved |
| C110 | Interpolated assembling merges all tiles | the arrays of tmp numbered by module and tile, found again by their number; maximum of the values which are there | Props/InterpolateImage | proved |
| C111 | An interrupted write never shows part of the data | list of the contents of the file after each HDF5 operation; the names of the sources are written last, and opening needs them | Props/WriteDisk | proved |
| C112 | Writing leaves the files of the run as they are | disk as a function from names to contents; files which are not open are read again after the target was emptied | Props/WriteDisk | partial |
| C113 | Detector data without pulses lines up | the arrays of the modules fitted to common labels; entries at a label compared with get_array_exact of the module | Props/DetSlow | proved |
| C114 | CXI files agree with detector arrays | both sides related to the entries of the files: the module datasets of the CXI file by its tables, the array by its labels | Props/CxiArray | proved |
| C115 | Clients of serve_files get the trains of the run in order | serve_files as the sequence of calls on the streamer, composed with the state machine of the threads; order by stream_order_of_calls, contents by message_decodes and pureAssemble_agrees; at most one train after stop by an invariant with the number of replies left | Props/ServeStream, Props/Stream | partial |
| C116 | What a virtual file shows when it is read later | virtual files with references (file, dataset, position) in place of values; the functions of the model do not look at values, so they commute with replacing values (naturality), and the theorems about values give those about references | Props/Links | partial |
| C117 | What a virtual CXI file shows when it is read later | as C116, with the theorem about CXI files applied to the detector object over references | Props/LinksCxi | partial |
| C118 | Copies of copies | induction over the chain of copies: the theorems about written files give one step, files with the same entries for each train, in the order of trains, give the same arrays (sorted_ext), and the conditions for writing carry over to the copy | Props/Copies | proved |
| C119 | write_virtual_cxi and the files on disk | writing split in collecting mappings (before the target is opened) and steps on the open file; proved equal to the content of Model/Cxi.lean when it succeeds (planData_iff, written_iff); the list of modules is written in the last step only (runSteps_modules) | Props/CxiDisk, Props/CxiPart | partial |
| C120 | Data without pulses when iterating over detector trains | loop over modules and keys without cache (collect_pure), membership of what is collected (collected_mem), one entry (iterEntry_valid), joined shapes (joinSizes_ok) | Props/DetIterSlow | proved |
| C121 | Streaming goes on | infinite executions (Spec/StreamLive): invariants relating requests, replies and trains (Streamer.Good), a measure which every step of the thread increases (Streamer.progress), and what the thread waits for when it comes to rest (comes_to_rest) | Props/StreamLive | proved |
| C122 | What is read is what is on disk | composition: invariants of histories of the cache (Props/FilesMapHistory, history_complete), sameness of files opened with and without it (run_directory_cache), histories of collections (narrowed_files, derived_parts) and exactness of get_array and train_from_id for the files of a collection | Props/EndToEnd, Props/EndToEndUnion | proved |
| C123 | A printed LPD geometry tells where everything is | structural induction on the tree: lines are never blank, so that indenting and splitting them again is adding two spaces to each; reading back by an independent reader of outlines | Props/OldGeometryText | proved |
| C124 | Moving the whole detector does not change the image | rounding to the nearest (ties to even) commutes with adding an even integer, or any integer without ties; then equality of the whole assembly by induction over modules and tiles; the positions from the theorems of C76, C79 | Props/Moving | partial |
| C125 | A detector interface for some modules or trains | from the exact contents of arrays (C55, C56) and the exact trains kept (C58) for both interfaces; files without selected trains have no frames in them | Props/DetPart | proved |
| C126 | Detector data of copies | a copy has the same arrays (C118), and frames are determined by the arrays of the key and of pulseId; then the exact theorems about detector arrays (C55, C58) on both sides | Props/DetCopy, Props/CopyDetIter | proved |
| C127 | Trains of copies | induction over the chain of copies: entries of each field in each train are the same (C37, C39); written control indexes have one entry per train; then the exact theorems of C28, C30 and C32 on both sides | Props/CopyTrains | proved |
| C128 | Series of copies | the rows of a series are determined by the entries of each train and by whether some train of the file has several (C33); both are the same in a copy under the conditions | Props/CopyTrains | partial |
| C129 | Exceptions of write and write_virtual | fold over the fields in the order of writing: the invariant of the writer up to the first failing field, then the step for it; the converse from write_succeeds_iff | Props/WriteErrors | proved |
| C130 | The order in which files are given does not matter | A relation of collections with the same files in some order (`SameContents`). Opening, and each of the selecting calls, leads from related to related collections, so that any sequence of calls does (induction on the calls). For arrays: the chunks of different files have different first trains (no two files have the same train for a source), so that stable sorting gives the same list of chunks with entries for any order of the blocks; the same argument for counts and series. For trains: at most one file has the train. | Props/FileOrder, Props/FrameOrder | proved |
| C131 | The file written does not depend on chance | the loops of FileWriter.write with the order of the sets as a parameter (Model/SetOrder.lean); the state of the writer is characterised by the set of fields written (invariant WInv), and the index of a group is the same whichever of its keys comes first; reordering of files by C130 | Props/SetOrder | proved |
| C132 | The detector interface does not depend on the order of files | C130 for the parts of __init__ (selection by a permuted list of patterns, counts, trains), arrays by stable sorting of non-empty blocks whose first trains are in different files, iteration through the cache-free form of C57, key by key | Props/DetFileOrder | proved |
| C133 | Virtual CXI files do not depend on the order of files | C132 for the detector object; contents of both files from the exact descriptions of C62 and C63, which do not mention the order; the keys inspected in the first file are the same in all | Props/CxiFileOrder | proved |
| C134 | Narrowing sources and narrowing trains commute | A collection within another (fewer files, same choices) expands any selection to the same choices for its own sources; filters on files commute; induction over the sequence of calls moves train selections to the end; reads of equal views through C130. | Props/Commute | proved |
| C135 | Joining parts of a collection gives the whole | The union of restrictions of one collection is the restriction to the merged selection (`union_restrict`), files compared as sets with different names; trains by uniqueness of sorted lists; data through the history theorem `derived_array`. | Props/Parts | proved |
| C136 | A run written in parts can be read as one | Each written file has all the data of its part (FullCopy, C118); the collection of these files is analysed with the exactness theorem of get_array (C24), and narrowing keeps the entries of covered trains (C107); equality of arrays from order and labels. | Props/SplitRun | proved |
| C137 | What is read does not depend on how the data is spread over files | Spec.SameData compares trains, sources, keys and, for each field and train, the entries held (fileEntries of the file which has it, none if there is no such file). The exact theorems on get_array, train_from_id, trains, get_data_counts, get_series and get_dataframe are applied to both sides. copy_sameData, order_sameData and split_sameData give pairs which meet it. | Props/SameData, Props/SameSeries | proved |
| C138 | Narrowing goes with copies and other layouts of files | Both sides are computed with the exact theorems on select, deselect and select_trains (C12, C15, C17); the sources which a pattern selects depend on sources, kinds and keys only; files which hold a selected source or train are all kept, so the entries stay the same. | Props/DataNarrow | proved |
| C139 | Detector data does not depend on how it is spread over files | Frames and counts of frames are determined by the entries held (frameOf_holds, frameCount_holds); then the exact theorems of C55, C57 and C58 on both sides; the data behind both interfaces are again the same by C138 | Props/DataDetector, Props/DataDetIter | proved |
| C140 | Virtual CXI files do not depend on how the data is spread over files | C139 for modules and trains; frames at positions from the entries held (frameAt_holds); then the exact contents of both files (cxi_alike, from which C133 also follows) | Props/DataCxi, Props/CxiFileOrder | proved |
| C141 | Many images are assembled at once as each of them by itself | positionArray models position_modules with leading dimensions over the loops of positionModules; proved by naturality: assembling commutes with any function on the values of pixels, here the choice of an index. | Props/Images | proved |
| C142 | Images of stacked detector data show every module at its place | stacked_images composes the model of stack_detector_data (C49) with positionArray (C141) and the specification of assembled images (C75). | Props/Images | proved |
| C143 | An output array can be used again and again | Induction over the list of data assembled before, with the invariant that cells which no tile covers are as at first; a covered cell shows a pixel of the last data (last_cover). | Props/Reuse | proved |
| C144 | A union shows nothing that the joined collections do not show | union_exact gives what the union shows in terms of the files of the parts; then a part which has the field, the train and the file shows the same (part_shows); a counterexample for the general statement. | Props/UnionExact, Props/HistoryGaps | partial |
| C145 | From the files of a run to images of the detector | composition of reading (what train_from_id and the iteration show), stacking and assembling; entries of a dataset are functions from positions to elements, trainArrays gives the arrays | Props/RunImages | partial |
| C146 | A loop over trains which stops early has seen right data | Model/Yields.lean models the generators as the list of items a loop gets and the exception it ends with. The caches are shown not to matter (invariant on the cache), so each step is a function of the train; induction over the trains gives the prefix which was read. | Props/Yields | proved |
| C147 | Trains without data do not shift the data of others | A chunk is read from the position of its first train; the positions at which the others are looked for are computed by recursion (readStarts) and shown to be those of the statement by induction over the stretch. The lemmas of C24 are generalised to this. | Props/AnyIndex, Props/AnyIndexArrays | partial |
| C148 | Copies of files whose index has gaps | Lemma file_read_labels (what is read back from a written file) needs only that labels are selected trains; get_array_reads gives this for any index. | Props/AnyIndexWrite | partial |
| C149 | Virtual CXI files of copies | A copy holds the same data (C137); what virtual CXI files need (CxiReady) is shown for the one file of the copy; then C140 applies. | Props/CopyCxi | proved |
| C150 | Lazy arrays of copies, selections and other layouts | For a written file: it has one run of trains, in which there is an entry, so there is no stretch without data (C34). Otherwise through get_array (C34, C137, C107). | Props/DataDask | proved |
| C151 | Paths and axes in CXI files | The file as a list of paths with groups, datasets, links and axes; a reader going down a path and following soft links. All paths below the groups are computed for arbitrary names, then sizes of dimensions are compared with numbers of labels. | Props/CxiTree | partial |
| C152 | The text of the cache file | json.dump and json.load character by character. By induction over JSON values, what was written is read back whatever follows; by induction over the reader, what was read stays read if more text follows, so a cut list would have to end where the whole one ends. | Props/CacheText | proved |
| C153 | A region of interest with a list of indices | numpy's advanced indexing with one list against h5py's selection; the list stands for a full slice until the dimensions are known, then reading chunk by chunk commutes with the selection as for C106. | Props/RoiList | partial |
| C154 | The text of CrystFEL geometry files | The text is modelled character by character; a separate small reader of lines (key, equals sign, value, comment) gives back what `CrystFEL` says was to be written; texts of vectors are cut at x, y and z. | Props/CrystFELText | proved |
| C155 | The bytes of stream messages | `Msgpack` has the bytes of every part; an own reader of the msgpack specification gives back every object (mutual induction on nested lists and dicts, whatever bytes follow); then message_decodes. |  | proved |
| C156 | The text which info prints | `InfoText` has the lines of every print; a separate specification says how a duration is read; the reading is unique, and the lines are cut apart again (no line break in them, empty lines between the lists). | Props/InfoText | proved |
| C157 | The bytes of stream messages of protocol 1.0 | `MsgpackNumpy` has the bytes of the dicts of msgpack_numpy; an own reader, which takes a dict with keys of bytes as an array or number, gives back the data by induction on sources and values. |  | partial |
| C158 | The line which lsxfel prints for a run | `LsText` has the line with Python's alignment of numbers; columns are cut off one after another, as digits are no blanks. | Props/LsText | proved |
| C159 | A boolean mask as region of interest | `RoiMask` replaces the mask by the places of True after numpy's check of its length, as numpy and h5py do; the rest is by the theorems on lists of indices. | Props/RoiMask | proved |

## Where the code does not do what the property says

Each of these was found while modelling, and most are theorems (named in brackets).

Reading and selecting
* Dataset names with dots cannot be read by their listed key (`key_lookup_dot_fails`).
* The key pattern `*` and dicts can bring back data which was not selected (`select_star_brings_back`, `select_dict_brings_back`); an empty
  key set raises TypeError (`select_dict_empty_keys_type_error`).
* `select_trains(by_id[a:b])` with Python integers raises TypeError when a bound falls between two trains
  (`select_trains_by_id_gap_type_error`).
* `get_array` of files with interleaved trains is not in train order (`get_array_out_of_order`).
* Control data whose index leaves out trains is read from the wrong row (`train_from_id_control_gap`).
* `get_data_counts` of control data always fails (`get_data_counts_control_fails`); `get_dask_array` does not check the field
  (`dask_array_unchecked`), and raises ZeroDivisionError where a run of selected trains of a file has no data
  (`dask_array_wrong`); data shorter than its index says is not refused by `get_array` if one entry is left, which is then
  repeated (`dask_array_truncated_wrong`, `virtual_truncated_wrong`); `info` fails with OverflowError for trains in reverse
  order (`info_reversed_wrong`); `train_info` ignores the selection (`train_info_unselected`).
* `open_run` with more leading zeros than the folder name has looks for another folder (`open_run_zeros_wrong`).
* The text of `by_id[x,]` reads back as `by_id[x]` (`repr_tuple_wrong`); the description of unknown file names is a tuple
  (`filename_unknown_wrong`), and text after the module number is accepted.

Writing and validating
* Files written from reversed, repeated or interleaved trains label data with the wrong trains (`write_reversed_wrong`,
  `write_duplicated_wrong`, `write_interleaved_wrong`); the assertion against this never fires (`index_order_unchecked`).
* Virtual files with control data missing for some trains (`virtual_control_gap_wrong`).
* Index validation overflows beyond 64 bits and rounds beyond 53 bits (`validation_overflow_wrong`, `validation_rounding_wrong`).
* Validating a run raises TypeError for every run with a usable file without a cache entry (`validate_run_needs_cache`).

Cache of run files
* `os.replace` is outside the `try`, so a failure leaves the temporary file (`dump_leftover_wrong`); `mkstemp` creates it with mode 0600, so other
  users cannot read it, and their PermissionError is not caught (`unreadable` cache files in `FilesMap`).
* A readable outdated document at an earlier place hides a newer one (`save_shadowed_wrong`).
* Files modified in place while being opened, and the fallback to stat by name, leave wrong entries (`history_modified_wrong`,
  `history_byname_wrong`).

Stacking
* Mixing 0-dimensional arrays raises IndexError (`stack_scalar_wrong`); an empty module out of range is accepted
  (`stack_empty_out_of_range_wrong`); axes below −ndim are accepted (`stack_axis_wraps_wrong`).
* Views: all-module indexing can drop the module axis (`view_all_axis_wrong`); reading below −modules gives fill values and changes the view
  (`view_negative_wrong`, `view_reads_wrong`).

Detector components and CXI files
* The check for negative pulses comes after a cast to unsigned (`pulse_negative_wrong`).
* Files whose index is not right within a run of consecutive trains get wrong labels (`get_array_index_wrong`); a train without frames
  at the end of a run whose index is not in place makes `by_id` lose frames (`get_array_empty_last_wrong`); `by_index` lists which do not increase always fail
  (`get_array_unordered`); iteration assumes sorted pulse IDs (`iterate_unsorted_wrong`) and may raise when no pulse matches
  (`iterate_empty_wrong`).
* CXI: pulse ID 9999 counts as missing (`cxi_pulse_9999_wrong`), higher ones fail (`cxi_pulse_high_wrong`); the first module must have data
  (`cxi_first_module_wrong`). Images of different sizes are noticed only after the target was emptied: an older file is lost
  (`cxi_target_lost_wrong`).

Streaming
* `serve_files` returns when it has put the last train into the buffer: from then on at most one more train is sent, so up to `maxlen` trains never
  reach a client (`stop_sends_one`, `serve_loses_rest`). If a train cannot be read or serialized it raises without stopping the thread
  (`serve_error_no_stop`).
* `stop()` loses buffered trains, can hang and can drop the last reply (`stop_loses_wrong`, `stop_hangs_wrong`, `stop_drops_wrong`); an unknown
  request ends the thread (`unknown_request`); a second `start()` leaves the first thread running (`double_start_wrong`).
* Dummy timestamps modify the arguments and are lost in protocol 1.0 (`dummy_mutates_wrong`, `dummy_v1_wrong`); so are all metadata passed to `feed` (`message_bytes_v1_metadata_wrong`); the docstring says 2.1 where the code
  takes 2.2 (`protocol_versions`).
* `--source` and `--key` of the command are ignored (`cli_options_ignored_wrong`).

Geometry
* AGIPD quadrant positions in other units scale the steps too (`agipd_units_wrong`, `agipd_millimetres_wrong`).
* The deprecated split accepts 128 × 512 arrays and mixes rows (`split_old_other_wrong`); its positions ignore the unit (`old_units_wrong`).
* Interpolated assembling looks in the wrong place (`interpolate_wrong`, `interpolate_place_wrong`): for geometries made from
  positions of quadrants the image is empty but for its first row and column (`interpolate_quads_wrong`). With a
  missing module, memory which was not written is seen in the image (`interpolate_missing_wrong`).
* `write` and `write_virtual` to a file of the collection which is not open (the run was opened from the cache file, or closed) empty that file before
  reading it: the call fails and the data is lost (`write_over_source_lost`, `write_over_source_wrong`).
* Virtual files and CXI files give fill values without an exception when their source files are gone or have become shorter
  (`virtual_missing_wrong`, `cxi_missing_wrong`).
* A write interrupted while the names of the sources are filled in leaves a file which opens, without sources (`interrupted_write_wrong`).
* A union shows data which none of the joined collections shows, if parts with different trains and sources are joined
  (`union_no_more_wrong`).
* `get_series` may fail for a copy of data for which it works (`copy_series_wrong`): pulse IDs are used if any train of the file has several
  entries, selected or not, and are read even if they are not selected.
* An inverted geometry file cannot be inverted again (`invert_twice_wrong`); a failed inversion leaves an incomplete file.
* The offset along the beam is written in pixels (`crystfel_offset_wrong`); the header always says AGIPD. A path with a semicolon is cut, as what follows it is a comment (`crystfel_semicolon_wrong`).
* Data coordinates beyond the end of a module land in another tile (the conversion does not check; C72 is for coordinates inside).

Tools
* QuickView: next at the last image raises and leaves an invalid position (`quick_next_wrong`), setting `pos` always raises (`quick_pos_wrong`), the
  constructor with an array raises (`quick_init_wrong`).
* lsxfel: the number of trains is that of the shortest sequence (`count_trains_wrong`), other files among several raise (`ls_file_wrong`), an
  unrecognised folder alone gives exit code 0 (`ls_folder_wrong`).
* make-virtual-cxi with `/raw/rNNNN` writes into the current folder (`cli_root_wrong`).
* `hdf5_paths` prints names of datasets twice (`paths_twice_wrong`) and leaves out members after the first `maxlen` (`paths_omits_wrong`).
* `plot_data_fast` stretches the image by half a pixel at both ends (`plot_edges_wrong`); on axes in metres DSSC rows are as high as columns are
  wide (`plot_dssc_metres_wrong`). `compare` leaves a margin of 20 and 40 metres (`compare_margin_wrong`). The deprecated `plot_data` puts the
  cross half a pixel away from the centre (`old_plot_wrong`).
* Moving the whole detector by one pixel can change the assembled image: a tile half way between two pixels is rounded to the even one, so
  that it moves relative to the others (`moved_image_wrong`).
* Validation does not look at control data: a wrong index passes, and reading fails or gives entries of other trains (`validated_control_wrong`).
* A train with a single frame of some detector modules and none of others can be stacked when read by `train_from_id`, but not when yielded by
  `trains()` (`single_frame_wrong`).
* `get_array` gives entries of other trains if a stretch of selected trains begins with a train without entries whose position in the index is
  not where the next entries are, such as 0 (`get_array_gap_wrong`). `write` copies these wrong entries to the new file (`copy_gap_wrong`).
* CXI files name `module_identifier` as the axis of modules. It has the numbers of the modules with data only, the dimension always has 16 entries:
  labels are wrong unless all modules are there (`cxi_modules_axis_wrong`). For cell IDs there is no such dataset in their group (`cxi_cell_axis_wrong`).
* A region of interest with a list of indices and an integer which do not stand next to each other, like `by_index[1, :, [0, 2]]`, gives an array
  without elements, or an exception, depending on the version of h5py (`get_array_list_apart_wrong`).
