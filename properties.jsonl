{"id": "C01", "title": "Train IDs of a file line up with its data index", "statement": "Opening a file gives the non-zero entries of INDEX/trainId in file order. If zeros only pad the end of that dataset, the n-th train ID of the opened file is described by the n-th row of every first/count index, so a train is never given another train's data. If a zero comes before a train ID (which validation reports), the rows shift.", "quantifier": "every INDEX/trainId array and every index array", "why_tests_cant": "the trainId array and index arrays are arbitrary; tests only use mock files with tidy padding", "anchors": ["karabo_data/reader.py:FileAccess.__init__", "karabo_data/reader.py:FileAccess._read_index", "karabo_data/validation.py:FileValidator.check_trainids"]}
{"id": "C02", "title": "Old first/last/status indexes give the right counts", "statement": "For index groups without a count dataset, the number of entries reported for a train is last-first+1 when status is 1 and 0 when status is 0, for any 64-bit first and last, including empty trains recorded as last = first-1 where the unsigned subtraction wraps around.", "quantifier": "every 64-bit first/last and every status", "why_tests_cant": "wrap-around happens only at particular 64-bit values", "anchors": ["karabo_data/reader.py:FileAccess._read_index"]}
{"id": "C03", "title": "Source names are parsed from file metadata", "statement": "Every non-empty METADATA data source ID of the form CONTROL/<name> appears as control source <name>, every INSTRUMENT/<device>:<channel>/<group> as instrument source <device>:<channel>, nothing else appears, empty padding is ignored, and any other category makes opening fail with ValueError. The format version decides which dataset is read.", "quantifier": "every list of metadata strings and every format version", "why_tests_cant": "all strings", "anchors": ["karabo_data/reader.py:FileAccess._read_data_sources", "karabo_data/reader.py:FileAccess.format_version"]}
{"id": "C04", "title": "The keys of a source are exactly its datasets", "statement": "The keys listed for a source in a file are exactly the datasets below that source's group, with path separators shown as dots, and looking a listed key up again finds that same dataset. An unknown source raises SourceNameError.", "quantifier": "every file layout (any nesting) and every source", "why_tests_cant": "all group trees", "anchors": ["karabo_data/reader.py:FileAccess.get_keys", "karabo_data/reader.py:DataCollection.keys_for_source"]}
{"id": "C05", "title": "Index and key caching is invisible", "statement": "Whatever sequence of index and key requests was made before on a file, each request returns what a first request would have returned, and failed requests are not remembered as answers. Requests which succeeded before are answered without opening the file.", "quantifier": "every history of requests", "why_tests_cant": "needs all call histories", "anchors": ["karabo_data/reader.py:FileAccess.get_index", "karabo_data/reader.py:FileAccess.get_keys"]}
{"id": "C06", "title": "Closing a collection does not break derived collections", "statement": "Leaving a with-block closes the underlying files, and any later read through any collection sharing those files reopens the file and returns the same data; collections made by selecting or merging cannot be used in a with statement.", "quantifier": "every interleaving of reads and closes", "why_tests_cant": "needs all histories", "anchors": ["karabo_data/reader.py:FileAccess.file", "karabo_data/reader.py:FileAccess.close", "karabo_data/reader.py:DataCollection.__enter__", "karabo_data/reader.py:DataCollection.__exit__"]}
{"id": "C07", "title": "Train IDs of a collection are sorted and unique", "statement": "Opening any set of files gives train_ids in strictly increasing order, containing a train ID exactly when some file contains it.", "quantifier": "every list of files", "why_tests_cant": "all file contents", "anchors": ["karabo_data/reader.py:DataCollection.__init__"]}
{"id": "C08", "title": "Conflicting data is detected exactly", "statement": "Creating a collection raises ValueError exactly when some source is present in two of its files which share a train ID; otherwise for each source and train at most one file holds the data.", "quantifier": "every list of files", "why_tests_cant": "all combinations of files and trains", "anchors": ["karabo_data/reader.py:DataCollection._check_source_conflicts", "karabo_data/reader.py:DataCollection.__init__"]}
{"id": "C09", "title": "The sources of a collection are the selected sources present in its files", "statement": "control_sources and instrument_sources contain exactly the selected names that some file of the collection lists in that category.", "quantifier": "every file list and selection", "why_tests_cant": "all file lists", "anchors": ["karabo_data/reader.py:DataCollection.__init__", "karabo_data/reader.py:DataCollection.all_sources"]}
{"id": "C10", "title": "Unreadable files are skipped, and only those", "statement": "Opening several paths uses exactly the paths that open without error, in order, and fails only when none of them does.", "quantifier": "every list of paths and every pattern of failures", "why_tests_cant": "all failure patterns", "anchors": ["karabo_data/reader.py:DataCollection.from_paths", "karabo_data/reader.py:RunDirectory"]}
{"id": "C11", "title": "Glob patterns mean what the documentation says", "statement": "A name matches a pattern exactly when it can be cut into pieces matching the pattern elements in turn: * any text, ? one character, [..] one listed character, [!..] one unlisted character, anything else itself (case sensitive).", "quantifier": "every pattern and every name", "why_tests_cant": "all strings", "anchors": ["karabo_data/reader.py:DataCollection._select_glob", "karabo_data/reader.py:DataCollection.select"]}
{"id": "C12", "title": "select() with globs picks exactly the matching data", "statement": "After select() with one or several (source, key) pattern pairs other than the key pattern *, a source/key pair is included exactly when it was available before and matches one of the pairs; ValueError exactly when one pair matches nothing. A control key also matches when the pattern matches it without a trailing .value.", "quantifier": "every collection and list of pattern pairs", "why_tests_cant": "all collections and patterns", "anchors": ["karabo_data/reader.py:DataCollection.select", "karabo_data/reader.py:DataCollection._select_glob", "karabo_data/reader.py:DataCollection._expand_selection", "karabo_data/read_machinery.py:union_selections"]}
{"id": "C13", "title": "Selecting never brings back data", "statement": "No sequence of select calls makes a source/key pair available that was not available in the collection it was called on.", "quantifier": "every collection and every select argument", "why_tests_cant": "needs all histories of selections", "anchors": ["karabo_data/reader.py:DataCollection.select", "karabo_data/reader.py:DataCollection._select_glob", "karabo_data/reader.py:DataCollection.keys_for_source"]}
{"id": "C14", "title": "select() with a dict picks exactly what it names", "statement": "select({source: keys}) gives exactly those keys for exactly those sources, SourceNameError when a source is missing, and an empty set of keys means all keys of that source.", "quantifier": "every collection and dict", "why_tests_cant": "all dicts", "anchors": ["karabo_data/reader.py:DataCollection._expand_selection"]}
{"id": "C15", "title": "deselect() is the complement of select()", "statement": "After deselect(x), a source/key pair remains exactly when it was available before and select(x) does not include it.", "quantifier": "every collection and selection argument", "why_tests_cant": "all collections and patterns", "anchors": ["karabo_data/reader.py:DataCollection.deselect"]}
{"id": "C16", "title": "Selections merge as unions", "statement": "Merging selections includes a source/key pair exactly when one of them does; the result does not depend on the order or grouping of the merged selections.", "quantifier": "every list of selections", "why_tests_cant": "all lists", "anchors": ["karabo_data/read_machinery.py:union_selections"]}
{"id": "C17", "title": "union() joins data regardless of order", "statement": "Joining collections gives the sorted union of their train IDs, each file once, every source/key pair available in any of them (given that the selected keys exist and that files of a source have the same keys), and the same data whatever the order or grouping of the collections and whatever order the set of files is iterated in; it raises ValueError exactly when two different files conflict.", "quantifier": "every list of collections and every iteration order", "why_tests_cant": "set iteration order is randomised per process", "anchors": ["karabo_data/reader.py:DataCollection.union"]}
{"id": "C18", "title": "Slicing trains by ID", "statement": "select_trains(by_id[a:b]) keeps exactly the trains with a <= ID < b, in order, for any bounds including IDs missing from the run; it raises ValueError exactly when the range ends before the first train or starts after the last.", "quantifier": "every strictly increasing list of train IDs and all bounds", "why_tests_cant": "all train ID lists and bounds; the missing-ID case is never hit by the mock data", "anchors": ["karabo_data/read_machinery.py:_tid_to_slice_ix", "karabo_data/reader.py:DataCollection.select_trains"]}
{"id": "C19", "title": "Slicing trains by index", "statement": "select_trains(by_index[slice]) keeps exactly the trains whose position is in the Python slice, for all start/stop/step, positive or negative.", "quantifier": "every list and every slice", "why_tests_cant": "all slices", "anchors": ["karabo_data/reader.py:DataCollection.select_trains"]}
{"id": "C20", "title": "Selecting a list of train IDs", "statement": "select_trains(by_id[list]) keeps exactly the listed IDs present in the data, each once, in increasing order, and raises ValueError exactly when none is present.", "quantifier": "every collection and list", "why_tests_cant": "all lists", "anchors": ["karabo_data/reader.py:DataCollection.select_trains"]}
{"id": "C21", "title": "Selecting a list of train indexes", "statement": "select_trains(by_index[list]) keeps exactly the trains at those positions (negative counts from the end) in increasing order and raises IndexError exactly when a position is out of range.", "quantifier": "every collection and list", "why_tests_cant": "all lists", "anchors": ["karabo_data/reader.py:DataCollection.select_trains"]}
{"id": "C22", "title": "Selecting trains loses no data of the kept trains", "statement": "For every train kept by select_trains, every source and key gives the same data as before; files dropped hold none of the kept trains. Selecting sources does not change the data of the selected sources either, and the two kinds of selection commute.", "quantifier": "every collection, selection and train range", "why_tests_cant": "all collections", "anchors": ["karabo_data/reader.py:DataCollection.select_trains", "karabo_data/reader.py:DataCollection.select"]}
{"id": "C23", "title": "Runs of selected trains are found exactly", "statement": "The contiguous regions computed from a mask of selected trains are the maximal runs of selected positions, in order, and cover exactly the selected positions.", "quantifier": "every boolean mask", "why_tests_cant": "all masks of all lengths", "anchors": ["karabo_data/read_machinery.py:contiguous_regions"]}
{"id": "C24", "title": "get_array returns exactly the selected data", "statement": "For files with at least one train whose index is contiguous and within the dataset, for every train the entries labelled with it in the array are exactly that train's entries in the file, in order; there are none for trains outside the selection.", "quantifier": "every collection, source, key and train selection, files in any order", "why_tests_cant": "all file layouts and selections", "anchors": ["karabo_data/reader.py:DataCollection.get_array", "karabo_data/reader.py:DataCollection._find_data_chunks", "karabo_data/reader.py:DataCollection._expand_trainids", "karabo_data/read_machinery.py:DataChunk"]}
{"id": "C25", "title": "get_array is in train order", "statement": "The train labels of the array never decrease, for any files with increasing train IDs.", "quantifier": "every collection", "why_tests_cant": "interleaved files are not in the tests", "anchors": ["karabo_data/reader.py:DataCollection.get_array"]}
{"id": "C26", "title": "Reading an unknown field fails cleanly", "statement": "Reading with an unknown source raises SourceNameError, with a known source and an unselected key PropertyNameError, before any data is read, and never otherwise.", "quantifier": "every collection, source and key", "why_tests_cant": "all names", "anchors": ["karabo_data/reader.py:DataCollection._check_field", "karabo_data/reader.py:DataCollection.get_array"]}
{"id": "C27", "title": "Files with different shapes or types are refused", "statement": "For such files get_array raises an exception exactly when the files holding the source disagree on entry shape or data type, even for files outside the train selection.", "quantifier": "every collection", "why_tests_cant": "all files", "anchors": ["karabo_data/reader.py:DataCollection.get_array"]}
{"id": "C28", "title": "train_from_id returns exactly one train's data", "statement": "For a train in the collection the result has one dictionary per selected source with its metadata, and for each selected key the single entry if there is one, an array if there are several, and nothing if there are none; TrainIDError exactly when the train is not in the collection.", "quantifier": "every collection and train ID", "why_tests_cant": "all collections", "anchors": ["karabo_data/reader.py:DataCollection.train_from_id", "karabo_data/reader.py:DataCollection._find_data"]}
{"id": "C29", "title": "Iterating trains agrees with reading them one at a time", "statement": "trains() yields the selected train IDs in order, each with the same data as train_from_id for that train (except that it shows an empty array where train_from_id leaves the key out), whatever was read before.", "quantifier": "every collection and iteration history", "why_tests_cant": "the dataset cache depends on history", "anchors": ["karabo_data/reader.py:TrainIterator", "karabo_data/reader.py:DataCollection.trains"]}
{"id": "C30", "title": "require_all skips exactly the incomplete trains", "statement": "trains(require_all=True) yields exactly those trains for which every selected source is in a file with that train and every selected instrument key has at least one entry (a control source has one entry for every train of its file).", "quantifier": "every collection", "why_tests_cant": "all patterns of missing data", "anchors": ["karabo_data/reader.py:DataCollection._check_data_missing", "karabo_data/reader.py:TrainIterator.__iter__"]}
{"id": "C31", "title": "train_from_index is train_from_id of the n-th train", "statement": "For every index valid for the list of train IDs (negative from the end), train_from_index gives train_from_id of that train; otherwise IndexError.", "quantifier": "every collection and integer", "why_tests_cant": "all integers", "anchors": ["karabo_data/reader.py:DataCollection.train_from_index"]}
{"id": "C32", "title": "get_data_counts matches get_array", "statement": "For instrument data the counts reported for each train equal the number of entries get_array returns for it, and trains outside the selection are absent.", "quantifier": "every collection", "why_tests_cant": "all collections", "anchors": ["karabo_data/reader.py:DataCollection.get_data_counts"]}
{"id": "C33", "title": "get_series returns exactly the selected data", "statement": "For valid files, for each selected train the series holds that train's entries in order, labelled with the train ID, and nothing for other trains; multi-entry trains are labelled with their pulse IDs. It fails exactly when the data is not one-dimensional (apart from a second dimension of 1 in a file where some train has several entries), some file with the source has no entries, or only some of these files have several entries for a train.", "quantifier": "every collection", "why_tests_cant": "all collections", "anchors": ["karabo_data/reader.py:DataCollection.get_series"]}
{"id": "C34", "title": "get_dask_array equals get_array", "statement": "The lazy array has the same entries in the same order as get_array, and choosing the chunk size terminates with chunks of at least one entry within the size limit whenever more than one entry remains.", "quantifier": "every collection", "why_tests_cant": "all sizes", "anchors": ["karabo_data/reader.py:DataCollection.get_dask_array"]}
{"id": "C35", "title": "Dataframe columns", "statement": "get_dataframe has one column per selected source/key, leaves out exactly the keys ending in .timestamp unless asked for, and names columns source/key without a trailing .value.", "quantifier": "every collection", "why_tests_cant": "all names", "anchors": ["karabo_data/reader.py:DataCollection.get_dataframe", "karabo_data/reader.py:DataCollection.get_series"]}
{"id": "C36", "title": "Written indexes are correct", "statement": "The first/count index written for any non-decreasing list of entry train IDs taken from an increasing list of trains is contiguous from 0, counts each train's entries, and points at exactly the entries labelled with that train.", "quantifier": "every list of train IDs and labels", "why_tests_cant": "all lists", "anchors": ["karabo_data/writer.py:FileWriter._generate_index", "karabo_data/writer.py:FileWriter._make_control_index"]}
{"id": "C37", "title": "Writing then reading gives the data back", "statement": "For a collection of valid files whose trains are increasing, reading the file written by write() gives the same train IDs, the same sources and keys, and for every train, source and key the same entries.", "quantifier": "every collection", "why_tests_cant": "all collections", "anchors": ["karabo_data/writer.py:FileWriter.write", "karabo_data/reader.py:H5File", "karabo_data/reader.py:DataCollection.write"]}
{"id": "C38", "title": "A written file never gives data to the wrong train", "statement": "For every collection produced by the selection API, in any order of trains, if write() succeeds then every train read from the new file has the data it had in the collection.", "quantifier": "every collection reachable through select/select_trains/union", "why_tests_cant": "needs every selection order, e.g. reversed or repeated trains", "anchors": ["karabo_data/writer.py:FileWriter._generate_index", "karabo_data/writer.py:FileWriter._make_control_index", "karabo_data/reader.py:DataCollection.select_trains"]}
{"id": "C39", "title": "Virtual files equal copied files", "statement": "write_virtual and get_virtual_dataset expose, for every field with data, the same entries, index and train IDs as write().", "quantifier": "every collection", "why_tests_cant": "all collections", "anchors": ["karabo_data/writer.py:VirtualFileWriter._assemble_data", "karabo_data/reader.py:DataCollection.get_virtual_dataset"]}
{"id": "C40", "title": "Written files pass validation", "statement": "Validating a file written from valid files with increasing trains reports no problem.", "quantifier": "every collection", "why_tests_cant": "all collections", "anchors": ["karabo_data/writer.py:FileWriter", "karabo_data/validation.py:FileValidator"]}
{"id": "C41", "title": "Index validation is exact", "statement": "For an instrument index with one entry per train, validation reports no index problem exactly when the index starts at 0, each train starts where the previous ended, and no train reaches beyond the data.", "quantifier": "every index and dataset length", "why_tests_cant": "all index arrays", "anchors": ["karabo_data/validation.py:FileValidator.check_indices", "karabo_data/validation.py:check_index_contiguous"]}
{"id": "C42", "title": "Train ID validation is exact", "statement": "Validation reports no train ID problem exactly when all zeros are at the end and the other train IDs strictly increase.", "quantifier": "every train ID array", "why_tests_cant": "all arrays", "anchors": ["karabo_data/validation.py:FileValidator.check_trainids"]}
{"id": "C43", "title": "Validating a run reports instead of crashing", "statement": "Validating a run directory reports every file that cannot be opened, every problem of each file and every wrong cache entry, and does not crash, whatever is in the directory and the cache.", "quantifier": "every directory and cache content", "why_tests_cant": "all directory states", "anchors": ["karabo_data/validation.py:RunValidator"]}
{"id": "C44", "title": "Outdated cache entries are not used", "statement": "A cached description of a file is used only if the file's modification time and size at the time the cache was loaded equal those recorded with it.", "quantifier": "every cache content and directory state", "why_tests_cant": "all states", "anchors": ["karabo_data/run_files_map.py:RunFilesMap.load", "karabo_data/run_files_map.py:RunFilesMap.get"]}
{"id": "C45", "title": "Opening with the cache equals opening without", "statement": "After any history of file changes, opens and cache saves by any number of processes, opening a run through the cache gives each file the same train IDs and sources as reading it, provided modification time and size identify a file's content.", "quantifier": "every history", "why_tests_cant": "needs all histories", "anchors": ["karabo_data/run_files_map.py:RunFilesMap", "karabo_data/reader.py:RunDirectory", "karabo_data/reader.py:FileAccess.__init__"]}
{"id": "C46", "title": "The cache file is never seen half-written", "statement": "Whatever the interleaving of processes saving the cache and wherever any of them crashes, the cache path holds either what it held before or one complete document written by one process.", "quantifier": "every interleaving and crash point", "why_tests_cant": "needs all interleavings and crash points", "anchors": ["karabo_data/run_files_map.py:atomic_dump"]}
{"id": "C47", "title": "Saving the cache", "statement": "After a successful save, loading gives a valid entry for every file that was opened; nothing is written when all files already had valid entries; permission errors make it try the next location and are never raised.", "quantifier": "every directory state and permission pattern", "why_tests_cant": "all states", "anchors": ["karabo_data/run_files_map.py:RunFilesMap.save"]}
{"id": "C48", "title": "Cache locations", "statement": "The run directory is always the first place for the cache, and the proposal scratch directory is used exactly for real paths of the form .../raw|proc/instrument/cycle/pNNN/rNNN whose scratch directory exists.", "quantifier": "every path", "why_tests_cant": "all strings", "anchors": ["karabo_data/run_files_map.py:RunFilesMap.map_paths_for_run"]}
{"id": "C49", "title": "Detector modules are stacked in their place", "statement": "stack_detector_data puts the data of module n at position n along the stacking axis and the fill value at every module without data or with an empty array.", "quantifier": "every set of modules, data and axis", "why_tests_cant": "all subsets of modules", "anchors": ["karabo_data/stacking.py:stack_detector_data", "karabo_data/stacking.py:StackView.asarray"]}
{"id": "C50", "title": "Bad detector data is refused", "statement": "stack_detector_data raises ValueError for an empty train, a non-detector source, mixed dtypes or incompatible shapes, and IndexError for a module number outside the detector, and only then.", "quantifier": "every train dictionary", "why_tests_cant": "all dictionaries", "anchors": ["karabo_data/stacking.py:stack_detector_data"]}
{"id": "C51", "title": "The array-like view equals the real array", "statement": "Indexing the view returned with real_array=False gives the same values as indexing the real array, for a single module (also negative) or all modules.", "quantifier": "every view and index", "why_tests_cant": "all index tuples", "anchors": ["karabo_data/stacking.py:StackView.__getitem__", "karabo_data/stacking.py:StackView._get_all_mods"]}
{"id": "C52", "title": "Reading a stack view never changes it", "statement": "Whatever was read from a view before, later reads and asarray() return the same.", "quantifier": "every sequence of reads", "why_tests_cant": "needs all histories", "anchors": ["karabo_data/stacking.py:StackView._get_single_mod", "karabo_data/stacking.py:StackView.asarray"]}
{"id": "C53", "title": "stack_data order", "statement": "stack_data stacks devices in order of the integers in their names, compared as lists of integers, keeping ties in dictionary order, leaving out the excluded devices.", "quantifier": "every train dictionary", "why_tests_cant": "all names", "anchors": ["karabo_data/stacking.py:stack_data"]}
{"id": "C54", "title": "Pulse selections are normalised or refused", "statement": "A pulse slice becomes one with integer bounds meaning the same for pulses 0..2699, or is refused if the step is below 1 or a bound is negative; a negative pulse number in a list is refused.", "quantifier": "every pulse selection", "why_tests_cant": "all slices and lists", "anchors": ["karabo_data/components.py:_check_pulse_selection"]}
{"id": "C55", "title": "Selecting pulses by index", "statement": "Selecting pulses by index takes from each train exactly the entries at the wanted positions which exist.", "quantifier": "every selection, any trains and frame counts", "why_tests_cant": "all selections", "anchors": ["karabo_data/components.py:MPxDetectorBase._select_pulse_indices", "karabo_data/components.py:MPxDetectorTrainIterator._select_pulse_indices"]}
{"id": "C56", "title": "Selecting pulses by ID", "statement": "Selecting pulses by ID takes exactly the entries whose pulse ID is wanted, in get_array and when iterating trains alike.", "quantifier": "every selection and pulse ID list", "why_tests_cant": "all selections, unsorted pulse IDs", "anchors": ["karabo_data/components.py:MPxDetectorBase._select_pulse_ids", "karabo_data/components.py:MPxDetectorTrainIterator._select_pulse_ids"]}
{"id": "C57", "title": "Detector arrays agree with detector iteration", "statement": "For each train and module, the frames and their train/pulse labels returned by get_array are the frames returned when iterating trains with the same pulse selection.", "quantifier": "every detector data and pulse selection", "why_tests_cant": "all data", "anchors": ["karabo_data/components.py:MPxDetectorBase._get_module_pulse_data", "karabo_data/components.py:MPxDetectorTrainIterator._get_pulse_data"]}
{"id": "C58", "title": "min_modules", "statement": "The detector interface keeps exactly the trains in which at least min_modules modules have data, and fails with ValueError exactly when there is none, or when non-zero frame counts differ.", "quantifier": "every run and min_modules", "why_tests_cant": "all patterns of missing modules", "anchors": ["karabo_data/components.py:MPxDetectorBase.__init__", "karabo_data/components.py:MPxDetectorBase._select_trains"]}
{"id": "C59", "title": "Splitting trains into consecutive chunks", "statement": "Detector trains are split into maximal runs of consecutive IDs whose concatenation is the original list.", "quantifier": "every list of train IDs", "why_tests_cant": "all lists", "anchors": ["karabo_data/components.py:MPxDetectorBase.__init__"]}
{"id": "C60", "title": "Detector frames are labelled with their train", "statement": "In a detector array each frame is labelled with the train it was recorded in, or an exception is raised (as when a module misses a train that others have).", "quantifier": "every file layout", "why_tests_cant": "all patterns of missing trains", "anchors": ["karabo_data/components.py:MPxDetectorBase._get_module_pulse_data"]}
{"id": "C61", "title": "Module numbers identify sources", "statement": "The detector interface maps each of its sources to the module number in its name and back; two sources with the same module number are refused.", "quantifier": "every set of sources", "why_tests_cant": "all names", "anchors": ["karabo_data/components.py:MPxDetectorBase._identify_sources", "karabo_data/components.py:MPxDetectorBase.__init__", "karabo_data/components.py:MPxDetectorBase._find_detector_name"]}
{"id": "C62", "title": "CXI files put every frame in its place", "statement": "In a virtual CXI file, frame k of train t of module m is found in column m at row (position of t)*frames_per_train + k; all other cells are unfilled. Building it terminates.", "quantifier": "every detector data whose files hold the frames in the order of the trains, with or without gaps, and every chunk layout", "why_tests_cant": "all layouts of missing trains", "anchors": ["karabo_data/write_cxi.py:VirtualCXIWriter._map_chunk", "karabo_data/write_cxi.py:VirtualCXIWriter.__init__"]}
{"id": "C63", "title": "CXI pulse IDs are consistent", "statement": "Writing a CXI file succeeds only if each frame has a pulse ID in at least one module and all modules with it agree; the pulse ID written for the frame is that one.", "quantifier": "every detector data", "why_tests_cant": "all patterns", "anchors": ["karabo_data/write_cxi.py:VirtualCXIWriter.collect_pulse_ids"]}
{"id": "C64", "title": "Streaming delivers trains in order, once", "statement": "Whatever the interleaving of feeding and client requests, the n-th reply is the n-th train fed, and no train is sent twice.", "quantifier": "every schedule", "why_tests_cant": "needs all interleavings", "anchors": ["karabo_data/export.py:ZMQStreamer.feed", "karabo_data/export.py:REPInterface.run"]}
{"id": "C65", "title": "The stream buffer is bounded", "statement": "At most maxlen trains wait in the buffer; feeding blocks when it is full and loses nothing.", "quantifier": "every schedule", "why_tests_cant": "needs all interleavings", "anchors": ["karabo_data/export.py:ZMQStreamer.feed"]}
{"id": "C66", "title": "Stopping a stream delivers what was fed", "statement": "After feed() returned for a train, some client request receives it even if the streamer is stopped afterwards.", "quantifier": "every schedule", "why_tests_cant": "needs all interleavings", "anchors": ["karabo_data/export.py:ZMQStreamer.stop", "karabo_data/export.py:REPInterface.run", "karabo_data/export.py:serve_files"]}
{"id": "C67", "title": "Stream messages decode to the data", "statement": "The message parts sent for a train contain each source's metadata and all its values: decoding as the bridge protocol prescribes gives the fed data back.", "quantifier": "every train dictionary", "why_tests_cant": "all data", "anchors": ["karabo_data/export.py:ZMQStreamer._serialize"]}
{"id": "C68", "title": "Dummy timestamps", "statement": "With dummy timestamps every source in a message has a timestamp, given ones are kept, and the data passed in is not modified.", "quantifier": "every data and metadata", "why_tests_cant": "all data and histories", "anchors": ["karabo_data/export.py:ZMQStreamer._serialize"]}
{"id": "C69", "title": "Command line selection is honoured", "statement": "karabo-bridge-serve-files --source S --key K streams only data matching S and K.", "quantifier": "every argument list", "why_tests_cant": "all arguments", "anchors": ["karabo_data/export.py:main", "karabo_data/export.py:serve_files"]}
{"id": "C70", "title": "Tiles partition a module", "statement": "For AGIPD, LPD and DSSC every pixel of a module belongs to exactly one tile region and every tile region lies inside the module.", "quantifier": "every pixel and tile", "why_tests_cant": "finite but the statement is about all pixels", "anchors": ["karabo_data/geometry2/__init__.py:AGIPD_1MGeometry._tile_slice", "karabo_data/geometry2/__init__.py:LPD_1MGeometry._tile_slice", "karabo_data/geometry2/__init__.py:DSSC_1MGeometry._tile_slice"]}
{"id": "C71", "title": "Splitting data agrees with tile regions", "statement": "Tile t obtained by splitting module data is exactly the part of the module given by tile region t.", "quantifier": "every module array", "why_tests_cant": "all arrays", "anchors": ["karabo_data/geometry2/__init__.py:AGIPD_1MGeometry.split_tiles", "karabo_data/geometry2/__init__.py:LPD_1MGeometry.split_tiles", "karabo_data/geometry2/__init__.py:DSSC_1MGeometry.split_tiles"]}
{"id": "C72", "title": "Data coordinates map to the right tile", "statement": "For AGIPD and LPD, converting a (possibly fractional) position in a module gives the tile whose region contains it and the offset in that region.", "quantifier": "every position inside a module", "why_tests_cant": "all real positions", "anchors": ["karabo_data/geometry2/__init__.py:AGIPD_1MGeometry._module_coords_to_tile", "karabo_data/geometry2/__init__.py:LPD_1MGeometry._module_coords_to_tile"]}
{"id": "C73", "title": "Snapped tiles keep their orientation", "statement": "In the assembled image pixel (i, j) of a tile is found at the cell reached from its corner by i slow-scan and j fast-scan steps, for all 8 axis-aligned orientations.", "quantifier": "every tile size, orientation and pixel", "why_tests_cant": "all sizes and pixels", "anchors": ["karabo_data/geometry2/__init__.py:GridGeometryFragment", "karabo_data/geometry2/__init__.py:GeometryFragment.snap"]}
{"id": "C74", "title": "The assembled image contains all tiles", "statement": "Every tile lies completely inside the output array, and the array is the smallest such box.", "quantifier": "every snapped geometry", "why_tests_cant": "all geometries", "anchors": ["karabo_data/geometry2/__init__.py:SnappedGeometry._get_dimensions", "karabo_data/geometry2/__init__.py:SnappedGeometry.position_modules"]}
{"id": "C75", "title": "Assembling loses no pixel", "statement": "If tiles do not overlap, each pixel of the input appears unchanged at its position in the output and cells not covered by a tile keep their previous value.", "quantifier": "every geometry, data and output array", "why_tests_cant": "all geometries", "anchors": ["karabo_data/geometry2/__init__.py:SnappedGeometry.position_modules"]}
{"id": "C76", "title": "Pixel positions agree with coordinate conversion", "statement": "For AGIPD and LPD, the position of the centre of a pixel equals converting its data coordinates plus one half; corners likewise without the half.", "quantifier": "every geometry and pixel", "why_tests_cant": "all geometries", "anchors": ["karabo_data/geometry2/__init__.py:DetectorGeometryBase.get_pixel_positions", "karabo_data/geometry2/__init__.py:DetectorGeometryBase.data_coords_to_positions"]}
{"id": "C77", "title": "CrystFEL geometry round trip", "statement": "Reading back the panel values written to a CrystFEL file gives the same tile corners, vectors and sizes, and panel pixel ranges are the tile regions of the data.", "quantifier": "every geometry", "why_tests_cant": "all geometries", "anchors": ["karabo_data/geometry2/crystfel_fmt.py:frag_to_crystfel", "karabo_data/geometry2/crystfel_fmt.py:write_crystfel_geom", "karabo_data/geometry2/__init__.py:GeometryFragment.from_panel_dict"]}
{"id": "C78", "title": "Rigid groups", "statement": "Every panel is in exactly one rigid quadrant group and one rigid module group, the ones of its module.", "quantifier": "every geometry size", "why_tests_cant": "all sizes", "anchors": ["karabo_data/geometry2/crystfel_fmt.py:get_rigid_groups"]}
{"id": "C79", "title": "Distortion array", "statement": "The pyFAI distortion array holds the corners of each pixel at the row of its module and slow-scan position; without negative coordinates allowed the smallest x and y are 0 and relative positions are kept.", "quantifier": "every geometry", "why_tests_cant": "all geometries", "anchors": ["karabo_data/geometry2/__init__.py:DetectorGeometryBase.to_distortion_array", "karabo_data/geometry2/__init__.py:DetectorGeometryBase._distortion_array_slice"]}
{"id": "C80", "title": "Quadrant positions in other units", "statement": "Giving the same quadrant positions and gaps in another unit gives the same geometry.", "quantifier": "every unit and positions", "why_tests_cant": "all units", "anchors": ["karabo_data/geometry2/__init__.py:AGIPD_1MGeometry.from_quad_positions", "karabo_data/geometry2/__init__.py:LPD_1MGeometry.from_quad_positions"]}
{"id": "C81", "title": "Quadrant geometry has no overlaps", "statement": "With non-negative gaps the tiles of a quadrant made from quadrant positions do not overlap and have the gaps asked for.", "quantifier": "every gap and position", "why_tests_cant": "all gaps", "anchors": ["karabo_data/geometry2/__init__.py:AGIPD_1MGeometry.from_quad_positions", "karabo_data/geometry2/__init__.py:LPD_1MGeometry.from_quad_positions"]}
{"id": "C82", "title": "Old and new LPD code split modules alike", "statement": "The deprecated LPD geometry and the current one split a module into the same tiles in the same order.", "quantifier": "every module array", "why_tests_cant": "all arrays", "anchors": ["karabo_data/geometry.py:splitChannelDataIntoTiles", "karabo_data/geometry2/__init__.py:LPD_1MGeometry.split_tiles"]}
{"id": "C83", "title": "Proposal and run numbers", "statement": "open_run opens the same directory for a number given as an integer, as a digit string or in full pNNNNNN/rNNNN form.", "quantifier": "every number", "why_tests_cant": "all numbers", "anchors": ["karabo_data/reader.py:open_run", "karabo_data/read_machinery.py:find_proposal"]}
{"id": "C84", "title": "QuickView position stays valid", "statement": "Whatever sequence of next/prev/pos operations is performed, the position refers to an existing image.", "quantifier": "every sequence of operations", "why_tests_cant": "needs all histories", "anchors": ["karabo_data/utils.py:QuickView"]}
{"id": "C85", "title": "File names are understood", "statement": "A file name <RAW|CORR>-<run>-<DET><n>-<seq>.h5 is recognised as detector data of that detector and module exactly for the known detectors.", "quantifier": "every file name", "why_tests_cant": "all names", "anchors": ["karabo_data/read_machinery.py:FilenameInfo"]}
{"id": "C86", "title": "Slice objects print as written", "statement": "The text shown for by_id[...] and by_index[...] reads back as the same selection.", "quantifier": "every index expression of integers, slices and ellipsis", "why_tests_cant": "all expressions", "anchors": ["karabo_data/read_machinery.py:_SliceConstructable"]}
{"id": "C87", "title": "info and train_info report what is there", "statement": "The number of trains, first and last train, and the sources listed for a train are those of the collection.", "quantifier": "every collection", "why_tests_cant": "all collections", "anchors": ["karabo_data/reader.py:DataCollection.info", "karabo_data/reader.py:DataCollection.train_info", "karabo_data/reader.py:DataCollection.detector_info"]}
{"id": "C88", "title": "Geometry files of LPD and DSSC", "statement": "A geometry read from an HDF5 file and quadrant positions puts each tile at the sum of the positions of its quadrant, module and tile, in the given unit: the corner with the highest x and y for LPD, the one with the lowest for DSSC. A missing position raises KeyError, a wrong number of quadrants AssertionError.", "quantifier": "every file, positions and unit", "why_tests_cant": "all files", "anchors": ["karabo_data/geometry2/__init__.py:LPD_1MGeometry.from_h5_file_and_quad_positions", "karabo_data/geometry2/__init__.py:DSSC_1MGeometry.from_h5_file_and_quad_positions"]}
{"id": "C89", "title": "Inverting an LPD geometry file", "statement": "The file written has every position of a module and tile with the opposite sign, and inverting it again gives back the original positions.", "quantifier": "every file", "why_tests_cant": "all files", "anchors": ["karabo_data/geometry2/__init__.py:invert_xfel_lpd_geom"]}
{"id": "C90", "title": "Interpolated assembling has room for all tiles", "statement": "The image made by interpolation is large enough for every point of every tile, with a margin below two pixels.", "quantifier": "every geometry", "why_tests_cant": "all geometries", "anchors": ["karabo_data/geometry2/__init__.py:AGIPD_1MGeometry._get_dimensions"]}
{"id": "C91", "title": "Interpolated assembling shows pixels where they are", "statement": "The cell of the interpolated image at a point of a tile shows the data of the tile at that point.", "quantifier": "every tile, centre and cell", "why_tests_cant": "all geometries", "anchors": ["karabo_data/geometry2/__init__.py:AGIPD_1MGeometry.position_modules_interpolate"]}
{"id": "C92", "title": "Deprecated LPD geometry places tiles where the file says", "statement": "The position of a tile is the sum of quadrant, module and tile position in the file, all in the given unit; position_all_modules puts every pixel of a tile there, turned by 180 degrees, inside the image; where tiles overlap the last is seen and other cells are nan. Wrong shapes, integer data and missing quadrants or tiles raise an error.", "quantifier": "every file, unit, list of quadrant positions and data array", "why_tests_cant": "all geometries and pixels", "anchors": ["karabo_data/geometry.py:LPDGeometry.from_h5_file_and_quad_positions", "karabo_data/geometry.py:LPDGeometry.position_all_modules", "karabo_data/geometry.py:GeometryFragment.find_offset", "karabo_data/geometry.py:LPDGeometry._plotting_dimensions"]}
{"id": "C93", "title": "lsxfel counts a run", "statement": "The summary of a run counts every data file (\u2026-S<digits>.h5) once, as a detector file or another file; the number of trains is that of the run when all sequences of files recorded the same trains, whatever the order in which the folder is listed.", "quantifier": "every folder and file content", "why_tests_cant": "all folder listings and contents", "anchors": ["karabo_data/lsxfel.py:summarise_run"]}
{"id": "C94", "title": "lsxfel says what it found", "statement": "Each path is reported as a run, a folder of runs, a data file, not recognised or not found, in the order given; the exit code is 0 exactly when every path was recognised, otherwise 2.", "quantifier": "every list of paths and file system content", "why_tests_cant": "all file systems", "anchors": ["karabo_data/lsxfel.py:main", "karabo_data/lsxfel.py:describe_file", "karabo_data/lsxfel.py:summarise_file", "karabo_data/lsxfel.py:describe_run"]}
{"id": "C95", "title": "make-virtual-cxi writes only where it should", "statement": "Without -o the file is <proposal>/scratch/<run>_<raw|proc>_detectors_virt.cxi, different for different runs, and a folder which is not .../raw/rNNNN or .../proc/rNNNN is refused; with -o it is the file given; nothing is written when there is no access or no AGIPD or LPD.", "quantifier": "every argument list and file system", "why_tests_cant": "all paths", "anchors": ["karabo_data/cli/make_virtual_cxi.py:main", "karabo_data/cli/make_virtual_cxi.py:_get_detector"]}
{"id": "C96", "title": "The validation command reports every problem and signals it", "statement": "karabo-data-validate exits with status 1 exactly when a problem was found, and the text it prints can be read back to the list of problems: different problems give different text.", "quantifier": "every file, run folder, list of problems", "why_tests_cant": "text of every combination of problems; tests compare a few messages", "anchors": ["karabo_data/validation.py:main", "karabo_data/validation.py:ValidationError", "karabo_data/validation.py:problem"]}
{"id": "C97", "title": "h5index lists every dataset once", "statement": "The table has one row for each dataset of the file, whatever the nesting, sorted by path, and each row reads back as CSV to the path, shape and type of the dataset.", "quantifier": "every tree of groups and datasets, every name", "why_tests_cant": "all trees and names with separators and quotes", "anchors": ["karabo_data/h5index.py:hdf5_datasets", "karabo_data/h5index.py:main"]}
{"id": "C98", "title": "Written files name their sources", "statement": "METADATA/dataSourceId, root and deviceId of a written file are those of exactly the sources written, each once, and dataSourceId is root/deviceId.", "quantifier": "every history of writes", "why_tests_cant": "all sources and orders", "anchors": ["karabo_data/writer.py:FileWriter.write_metadata"]}
{"id": "C99", "title": "hdf5_paths prints every name", "statement": "Every object in the file is printed once, indented by its depth.", "quantifier": "every tree of groups and datasets, maximal length", "why_tests_cant": "all trees", "anchors": ["karabo_data/utils.py:hdf5_paths"]}
{"id": "C100", "title": "Conversion to CBF writes the image asked for", "statement": "hdf5_to_cbf writes image number index of the first image source of the file, and raises an exception without writing a file if there is none.", "quantifier": "every file and index", "why_tests_cant": "all indices including negative ones, all lists of sources", "anchors": ["karabo_data/utils.py:hdf5_to_cbf", "karabo_data/utils.py:numpy_to_cbf"]}
{"id": "C101", "title": "plot_data_fast shows every pixel where it is", "statement": "On the axes of the plot, in pixels or in metres, the edges of each pixel of the assembled image are where the geometry puts that pixel relative to the centre of the detector, and the cross marks the centre.", "quantifier": "every geometry, stack of module images, unit and orientation", "why_tests_cant": "all shapes of images and all centres; the drawing libraries cannot be asked where a pixel is", "anchors": ["karabo_data/geometry2/__init__.py:SnappedGeometry.plot_data", "karabo_data/geometry2/__init__.py:DetectorGeometryBase.plot_data_fast"]}
{"id": "C102", "title": "inspect draws every tile where it is", "statement": "inspect draws one outline per tile, with its corners at the positions of the corners of the tile in units of the axes, marks the first row of pixels of each module, and puts the names of modules and tiles into the tiles they belong to; if tiles are missing or the unit is not known it raises an exception.", "quantifier": "every geometry, complete or not, unit and orientation", "why_tests_cant": "all geometries, all numbers of modules", "anchors": ["karabo_data/geometry2/__init__.py:DetectorGeometryBase.inspect", "karabo_data/geometry2/__init__.py:AGIPD_1MGeometry.inspect", "karabo_data/geometry2/__init__.py:LPD_1MGeometry.inspect", "karabo_data/geometry2/__init__.py:DSSC_1MGeometry.inspect"]}
{"id": "C103", "title": "compare shows the displacement of every tile", "statement": "compare draws, for each tile of the two geometries, arrows from the corners of the tile in the first to the corners in the second, enlarged by scale, and labels each module; the view covers all of both.", "quantifier": "every two geometries of the same detector and every scale", "why_tests_cant": "all pairs of geometries, including those with different numbers of modules", "anchors": ["karabo_data/geometry2/__init__.py:AGIPD_1MGeometry.compare"]}
{"id": "C104", "title": "Plots of the deprecated LPD geometry", "statement": "plot_data and inspect of the deprecated geometry show the image relative to the centre, and each tile with its name at its position.", "quantifier": "every geometry file and stack of module images", "why_tests_cant": "all positions of tiles and missing modules", "anchors": ["karabo_data/geometry.py:LPDGeometry.plot_data", "karabo_data/geometry.py:LPDGeometry.inspect"]}
{"id": "C105", "title": "Data which passes validation is read right", "statement": "If karabo-data-validate finds no problem in a run, then RunDirectory opens all its files, and get_array gives for every source and key and every train exactly the entries the files have for it, or raises an exception only if files disagree on the shape of entries or the data type.", "quantifier": "every run folder, with or without cached map, every source and key, every region of interest", "why_tests_cant": "the claim is about all runs which pass; tests read a few which do", "anchors": ["karabo_data/validation.py:FileValidator", "karabo_data/validation.py:RunValidator", "karabo_data/reader.py:RunDirectory", "karabo_data/reader.py:DataCollection.get_array"]}
{"id": "C106", "title": "A region of interest is a selection from the whole array", "statement": "get_array(..., roi=by_index[r]) has the train IDs of get_array(...) and the elements get_array(...)[(slice(None),) + r]; it raises the exception this indexing raises, and refuses in addition only backward slices and (depending on h5py) empty regions.", "quantifier": "every collection, field and region made of integers, slices and ellipses", "why_tests_cant": "all regions and shapes of entries", "anchors": ["karabo_data/reader.py:DataCollection.get_array", "karabo_data/reader.py:by_index"]}
{"id": "C107", "title": "Data stays right through any history of selections and unions", "statement": "Take any sequence of select, deselect, select_trains and union, where what is joined was made from the same collection in this way. The result has only files, trains and sources of the original. For each field still available, get_array works, and for each train get_array, get_series and train_from_id give what the original gives, or nothing. Without union they give exactly what the original gives for every selected train, and get_data_counts too. A union gives all that each of the joined collections gives.", "quantifier": "every collection of files with different names and a valid index (for get_array also an index with gaps, for get_data_counts any index within the data), every history of these calls with any arguments, every field", "why_tests_cant": "the histories are unbounded", "anchors": ["karabo_data/reader.py:DataCollection.select", "karabo_data/reader.py:DataCollection.deselect", "karabo_data/reader.py:DataCollection.select_trains", "karabo_data/reader.py:DataCollection.union", "karabo_data/reader.py:DataCollection.get_array"]}
{"id": "C108", "title": "A run directory is the union of its files", "statement": "Opening a run directory gives the same as opening each of its readable files by itself and joining them with union: the same exception if files conflict, else the same trains, files, available sources and keys, and the same data.", "quantifier": "all lists of opened files with different names, any order in which union visits files", "why_tests_cant": "all sets of files", "anchors": ["karabo_data/reader.py:RunDirectory", "karabo_data/reader.py:H5File", "karabo_data/reader.py:DataCollection.from_paths", "karabo_data/reader.py:DataCollection.from_path", "karabo_data/reader.py:DataCollection.union"]}
{"id": "C109", "title": "Rows of a dataframe line up", "statement": "The table returned by get_dataframe has a column for each available source and key, and each value stands in the row labelled with its own train (and pulse). A cell is missing only if that column has nothing for the label of the row. When no label repeats in a column, each label of any column is a row exactly once. When all columns have the same labels these are the rows, in order. For data with one entry per train, the cell in the row of a train is the entry which the file has for it.", "quantifier": "all collections, all fields, all labels, any way pandas orders the union of labels", "why_tests_cant": "all combinations of trains missing in some of the columns", "anchors": ["karabo_data/reader.py:DataCollection.get_dataframe", "karabo_data/reader.py:DataCollection.get_series"]}
{"id": "C110", "title": "Interpolated assembling merges all tiles", "statement": "The image made by position_modules_interpolate from data of shape (16, 512, 128) has the size and centre found for the geometry. Each cell has the largest of the values which the tiles have at the places looked up in them for this cell, and is missing only when no tile has a value there. Data of another shape is refused with AssertionError, before anything else.", "quantifier": "every complete AGIPD geometry, all data, any interpolation between pixels, any initial content of memory", "why_tests_cant": "all geometries and all data", "anchors": ["karabo_data/geometry2/__init__.py:AGIPD_1MGeometry.position_modules_interpolate"]}
{"id": "C111", "title": "An interrupted write never shows part of the data", "statement": "Wherever write(filename) or write_virtual(filename) stops, by an exception or Ctrl-C, the file it leaves either cannot be opened (KeyError), or opens without any source, or is complete. When the data itself makes the call fail, the file cannot be opened. Until the end its datasets are a beginning of those of the complete file; also when the call fails, each dataset holds (or shows) the complete array of a field of the collection.", "quantifier": "every collection, every point at which writing stops", "why_tests_cant": "all crash points of all writes", "anchors": ["karabo_data/writer.py:FileWriter.write", "karabo_data/writer.py:FileWriter.write_metadata", "karabo_data/writer.py:FileWriter.write_indexes", "karabo_data/reader.py:FileAccess._read_data_sources"]}
{"id": "C112", "title": "Writing leaves the files of the run as they are", "statement": "write(filename) and write_virtual(filename) change no file but the target, whatever happens. A target which this process has open is refused with OSError and stays as it is. A target which is not a file of the collection holds the selected data after success, and cannot be opened after failure.", "quantifier": "every collection, every disk content, every set of open files, every target", "why_tests_cant": "all targets, including the files being read", "anchors": ["karabo_data/writer.py:FileWriter.__init__", "karabo_data/reader.py:DataCollection.write", "karabo_data/reader.py:DataCollection.write_virtual", "karabo_data/reader.py:FileAccess.file"]}
{"id": "C113", "title": "Detector data without pulses lines up", "statement": "get_array of a detector object for a key outside image. has one layer per module, in order of module numbers, and the train labels for which any module has an entry. Each module has, at the places labelled with a train, exactly the entries its files have for this train; other places are missing values. There is an array whenever each module has data with at most one entry per train and entries of one shape. If one module has data and another has none at all, the call fails.", "quantifier": "every detector, key outside image., valid files, any trains missing in any modules", "why_tests_cant": "all patterns of missing trains over modules and files", "anchors": ["karabo_data/components.py:MPxDetectorBase.get_array", "karabo_data/reader.py:DataCollection.get_array"]}
{"id": "C114", "title": "CXI files agree with detector arrays", "statement": "Each cell of a detector dataset in a virtual CXI file equals the cell of get_array for all frames of the same detector at the module and at the train ID and pulse ID of the row, and every frame which get_array has is a row of the CXI file.", "quantifier": "every detector, all files of its modules, every row, module and position", "why_tests_cant": "the two are computed by different code from the same indices; all layouts of files and missing trains", "anchors": ["karabo_data/write_cxi.py:VirtualCXIWriter.collect_data", "karabo_data/write_cxi.py:VirtualCXIWriter.write", "karabo_data/components.py:MPxDetectorBase.get_array"]}
{"id": "C115", "title": "Clients of serve_files get the trains of the run in order", "statement": "While serve_files runs, the n-th reply which is sent is read by its client as the data of the n-th train of the selected data which has sources: the same sources, keys and values as train_from_id gives for this train, and metadata with the name of the source, the train ID and, with dummy timestamps, the time at which this train was fed. If nothing fails, all trains are fed. All of them are delivered before serve_files returns.", "quantifier": "every run, selection, number of clients, order of requests and schedule of the threads", "why_tests_cant": "interleavings of the feeding loop, the thread of the socket and the clients with any run of files", "anchors": ["karabo_data/export.py:serve_files", "karabo_data/export.py:ZMQStreamer.feed", "karabo_data/export.py:ZMQStreamer.start", "karabo_data/export.py:ZMQStreamer.stop", "karabo_data/export.py:REPInterface.run"]}
{"id": "C116", "title": "What a virtual file shows when it is read later", "statement": "A file made with write_virtual or get_virtual_dataset, read at any later time, has the trains, sources, keys and number of entries of the collection when it was made. Its entries are what is then in the source files at the places where the collection had them: changes of a source file show through, other files do not matter. Reading it never gives anything but data of the run.", "quantifier": "every collection, and every change of the files on disk after the virtual file was written", "why_tests_cant": "all later states of all source files: changed, truncated, deleted", "anchors": ["karabo_data/writer.py:VirtualFileWriter._assemble_data", "karabo_data/writer.py:VirtualFileWriter.add_instrument_dataset", "karabo_data/reader.py:DataCollection.write_virtual", "karabo_data/reader.py:DataCollection.get_virtual_dataset"]}
{"id": "C117", "title": "What a virtual CXI file shows when it is read later", "statement": "A file made with write_virtual_cxi, read at any later time, has the rows, train IDs, pulse IDs and modules of when it was made, and in each cell what is then in the file of its module at the place of the frame. It shows which modules have data.", "quantifier": "every detector, and every change of the files on disk after the CXI file was written", "why_tests_cant": "all later states of all source files; where pulse IDs are copied and images are links", "anchors": ["karabo_data/write_cxi.py:VirtualCXIWriter.collect_data", "karabo_data/write_cxi.py:VirtualCXIWriter.collect_pulse_ids", "karabo_data/write_cxi.py:VirtualCXIWriter.write"]}
{"id": "C118", "title": "Copies of copies", "statement": "If a collection can be written with write, it can be copied any number of times with write or write_virtual, in any order, each copy made from the one before; all the files can be opened, and each copy has the trains, sources and keys of the original, and get_array gives the same array (entries, train IDs, shape and type) for each of them.", "quantifier": "every collection of valid files with usable names, every sequence of copies of either kind, every key and region of interest", "why_tests_cant": "histories of copies of any length", "anchors": ["karabo_data/reader.py:DataCollection.write", "karabo_data/reader.py:DataCollection.write_virtual", "karabo_data/writer.py:FileWriter.write", "karabo_data/writer.py:VirtualFileWriter", "karabo_data/reader.py:DataCollection.from_path", "karabo_data/reader.py:DataCollection.get_array"]}
{"id": "C119", "title": "write_virtual_cxi and the files on disk", "statement": "Whenever write_virtual_cxi is interrupted or fails: the files with the frames of the detector are as before (also when one of them is given as the target), and so are all other files; a file which has the list of modules (module_identifier) is complete, and in an incomplete one each dataset holds what it is to hold (names of frames and of gain stages may still be empty), with the labels of frames in place before there are frames. If pulse IDs are inconsistent or a key is missing, the target is not touched. If the call fails, the file which was to be replaced is still there.", "quantifier": "every detector, disk, target and moment of the call", "why_tests_cant": "interruption at every step, every state of the disk", "anchors": ["karabo_data/write_cxi.py:VirtualCXIWriter.write", "karabo_data/write_cxi.py:VirtualCXIWriter.collect_data", "karabo_data/write_cxi.py:VirtualCXIWriter._map_chunk", "karabo_data/components.py:MPxDetectorBase.write_virtual_cxi"]}
{"id": "C120", "title": "Data without pulses when iterating over detector trains", "statement": "When iterating over the trains of a detector, a key outside image. is there for a train exactly when some module has it. Its array has one layer for each of these modules, in order of module numbers, with the entry which the files have for the module in this train, or all of them if there are several; these are the same as get_array has at the places labelled with the train. If the shapes of the data of two modules do not fit, iterating fails.", "quantifier": "every detector, key outside image., train and files in good order", "why_tests_cant": "all patterns of entries over modules, trains and files", "anchors": ["karabo_data/components.py:MPxDetectorTrainIterator._get_slow_data", "karabo_data/components.py:MPxDetectorTrainIterator._assemble_data", "karabo_data/components.py:MPxDetectorTrainIterator.__iter__"]}
{"id": "C121", "title": "Streaming goes on", "statement": "Suppose a streamer is started once, clients ask for the next train only, requests are not lost, and every thread which can go on does so at some time. If it is not stopped, then n requests and n calls of feed() lead to n replies which reach the clients, and every call of feed() returns once there is no maximum or all but maxlen of the trains were asked for. A call of stop() returns if one more request than the replies sent so far is made and one more train than these is fed, before or after the call.", "quantifier": "every infinite fair schedule, every number of clients and feeding threads, every maxlen", "why_tests_cant": "a test sees finitely many steps of a few schedules; that something happens at some time in all fair ones cannot be observed", "anchors": ["karabo_data/export.py:ZMQStreamer.feed", "karabo_data/export.py:ZMQStreamer.start", "karabo_data/export.py:ZMQStreamer.stop", "karabo_data/export.py:REPInterface.run"]}
{"id": "C122", "title": "What is read is what is on disk", "statement": "Take any history in which data files of a run directory are replaced and removed, cache files damaged, and any number of processes open the run, save its cache and crash. If the run is then opened, its files and train IDs are those of the readable .h5 files matching the pattern; and after any number of calls of select, deselect and select_trains, get_array, get_series and train_from_id give for each selected train exactly the entries which the file on disk has for it. If collections made in this way are joined again with union, get_array and get_series give these entries for each selected train which a file of the joined collection has, and nothing for other trains.", "quantifier": "every content of the directory, every history of it and of its cache, every sequence of selections, every field valid in the files, every train", "why_tests_cant": "the claim joins an unbounded history of the directory with an unbounded history of the collection; tests take a few fixed directories and one selection at a time", "anchors": ["karabo_data/reader.py:RunDirectory", "karabo_data/run_files_map.py:RunFilesMap", "karabo_data/reader.py:DataCollection.select", "karabo_data/reader.py:DataCollection.select_trains", "karabo_data/reader.py:DataCollection.deselect", "karabo_data/reader.py:DataCollection.get_array", "karabo_data/reader.py:DataCollection.train_from_id"]}
{"id": "C123", "title": "A printed LPD geometry tells where everything is", "statement": "str() of a (deprecated) LPD geometry is an outline: it has one line for each quadrant, module and tile, with its own offset, indented by its depth and below what it is part of, sorted by name; nothing else is in it.", "quantifier": "every tree of fragments, whatever its depth and number of parts, every name without colon and line feed which does not begin with a space", "why_tests_cant": "trees of any depth; tests print at most one geometry and look at nothing", "anchors": ["karabo_data/geometry.py:GeometryFragment.__str__", "karabo_data/geometry.py:GeometryFragment._str_lines"]}
{"id": "C124", "title": "Moving the whole detector does not change the image", "statement": "When all quadrant positions are shifted by the same amount the whole detector moves: every pixel, every pixel corner and every position of data coordinates moves by that amount; and if it is a whole number of pixels, the assembled image stays the same and only the reported centre moves the other way.", "quantifier": "every geometry (any tiles, any vector, quadrant positions of the three detectors, any data)", "why_tests_cant": "rounding depends on where every one of the tiles is; tests check a few fixed positions", "anchors": ["karabo_data/geometry2/__init__.py:AGIPD_1MGeometry.from_quad_positions", "karabo_data/geometry2/__init__.py:LPD_1MGeometry.from_quad_positions", "karabo_data/geometry2/__init__.py:DSSC_1MGeometry.from_h5_file_and_quad_positions", "karabo_data/geometry2/__init__.py:DetectorGeometryBase.position_modules_fast", "karabo_data/geometry2/__init__.py:DetectorGeometryBase.get_pixel_positions"]}
{"id": "C125", "title": "A detector interface for some modules or trains", "statement": "Asking for some modules only (modules=\u2026), or selecting trains before making the detector interface, gives exactly that part of the data: the same modules and trains restricted, and the same entries in the array at the same labels.", "quantifier": "every run with valid indexes, every choice of modules, every way of selecting trains, every selection of pulses", "why_tests_cant": "depends on every module and train of the run; tests make one interface and look at shapes", "anchors": ["karabo_data/components.py:MPxDetectorBase.__init__", "karabo_data/components.py:MPxDetectorBase._identify_sources", "karabo_data/components.py:MPxDetectorBase.get_array"]}
{"id": "C126", "title": "Detector data of copies", "statement": "For a file written by write or write_virtual (and for copies of copies), the detector interface can be made if it can for the original, with the same modules, trains and number of frames per train, and arrays of detector data read from it have the same labels and entries. Iterating over its trains gives the same trains, keys and data.", "quantifier": "every collection whose fields can be written, every chain of write and write_virtual, every choice of modules and min_modules, every key, every selection of pulses", "why_tests_cant": "tests write one file and read detector data from another one; none reads detector data from a written file", "anchors": ["karabo_data/writer.py:FileWriter.write", "karabo_data/writer.py:VirtualFileWriter", "karabo_data/components.py:MPxDetectorBase.__init__", "karabo_data/components.py:MPxDetectorBase.get_array"]}
{"id": "C127", "title": "Trains of copies", "statement": "For a file written by write or write_virtual (and for copies of copies), train_from_id works for each train and shows the same sources and data as for the original; iterating, with or without require_all, takes the same trains with the same data (except that one may show an empty array where the other shows nothing); and get_data_counts gives the same counts, apart from trains without entries.", "quantifier": "every collection whose fields can be written, every chain of write and write_virtual, every train, source and key", "why_tests_cant": "tests compare arrays of one written file; they do not read trains of copies", "anchors": ["karabo_data/writer.py:FileWriter.write", "karabo_data/writer.py:VirtualFileWriter", "karabo_data/reader.py:DataCollection.train_from_id", "karabo_data/reader.py:DataCollection.trains", "karabo_data/reader.py:DataCollection.get_data_counts"]}
{"id": "C128", "title": "Series of copies", "statement": "get_series (and so get_dataframe) gives for a copy written by write or write_virtual the same rows, with the same pulse IDs, as for the original.", "quantifier": "every collection whose fields can be written, every chain of copies, every source and key", "why_tests_cant": "needs files in which some trains have several pulses, and selections without them; tests have none", "anchors": ["karabo_data/writer.py:FileWriter.write", "karabo_data/reader.py:DataCollection.get_series"]}
{"id": "C129", "title": "Exceptions of write and write_virtual", "statement": "write raises an exception if and only if some field can not be written, and its class is determined by the first such field in the order of writing (control sources first): a plain Exception when files disagree about type or shape, AssertionError when control data has not exactly one entry for each selected train, KeyError when there is no data at all. Where the files agree, write_virtual raises AssertionError if some selected train has several entries of a control field, and otherwise no exception.", "quantifier": "every collection of valid files, every selection of sources, keys and trains", "why_tests_cant": "tests write complete data; no test writes data which can not be written", "anchors": ["karabo_data/writer.py:FileWriter.write", "karabo_data/writer.py:FileWriter.add_control_dataset", "karabo_data/reader.py:DataCollection.write"]}
{"id": "C130", "title": "The order in which files are given does not matter", "statement": "Opening the same files in another order fails in the same way or gives a collection with the same sources, keys and trains, provided that files which share a source have the same keys for it (as the data format requires). Whatever calls of select, deselect, select_trains and union follow, they go through for one order if they do for the other, and give the same sources, keys and trains again. From the two collections, get_array and get_dask_array give exactly the same arrays (the same entries in the same order, with the same labels), get_data_counts the same counts, get_series the same series, get_dataframe the same columns, and train_from_id and iterating over trains() the same data. Without the condition it is not so: the keys of a source are taken from the first file which has it.", "quantifier": "all lists of files (valid or not), all rearrangements of them, all sequences of selecting calls, all sources, keys, regions of interest and trains", "why_tests_cant": "Tests open a few files, in the order of a directory listing; that no order of any files makes a difference is a statement about all permutations.", "anchors": ["karabo_data/reader.py:DataCollection.from_paths", "karabo_data/reader.py:DataCollection.get_array", "karabo_data/reader.py:DataCollection.get_series", "karabo_data/reader.py:DataCollection.get_data_counts", "karabo_data/reader.py:DataCollection.train_from_id", "karabo_data/reader.py:DataCollection.select", "karabo_data/reader.py:DataCollection.union"]}
{"id": "C131", "title": "The file written does not depend on chance", "statement": "write and write_virtual go through sets of sources and keys, in an order which Python chooses anew in each process. Whatever the order, if writing succeeds with one it succeeds with all, and the file has the same contents: the same train IDs, the same list of sources, and the same dataset and index at each path. The order of the files of the collection does not matter either (provided that files which share a source have the same keys for it). Only the class of the exception, where several fields can not be written, depends on the order.", "quantifier": "every collection with the usual names, every two orders of its control sources, instrument sources and of the keys of each source, and every order of the files", "why_tests_cant": "hash randomisation: a test sees one order, or a few", "anchors": ["karabo_data/writer.py:FileWriter.write", "karabo_data/writer.py:VirtualFileWriter._assemble_data", "karabo_data/reader.py:DataCollection.write", "karabo_data/reader.py:DataCollection.write_virtual"]}
{"id": "C132", "title": "The detector interface does not depend on the order of files", "statement": "Opening the same detector files in another order gives the same detector object (name, modules, frames per train, trains), or fails in both orders. get_array gives exactly the same labelled array, with the modules in the same order, for frames and for other data. Iterating gives the same trains, with the same keys and exactly the same arrays. Needed for get_array: the files agree on the shape of images; otherwise the shape of an array without any frame depends on the order.", "quantifier": "every two collections with the same files in two orders, every detector class, module list and min_modules, every key and pulse selection", "why_tests_cant": "the order comes from the operating system; a test sees one directory listing", "anchors": ["karabo_data/components.py:MPxDetectorBase", "karabo_data/components.py:MPxDetectorBase._get_module_pulse_data", "karabo_data/components.py:MPxDetectorTrainIterator", "karabo_data/reader.py:DataCollection.select"]}
{"id": "C133", "title": "Virtual CXI files do not depend on the order of files", "statement": "Opening the same detector files in another order and writing a virtual CXI file gives a file with the same contents: the same identifiers, pulse IDs, train IDs, module numbers and data_gain, and the same virtual datasets, entry by entry; or writing fails in both orders, with the same exception for inconsistent pulse IDs. Needed: every module has a file with a train of the detector object, and files agree on which image keys they have and on shapes.", "quantifier": "every two collections with the same files in two orders, every detector class, module list and min_modules, raw and corrected data", "why_tests_cant": "the order comes from the operating system; a test sees one directory listing, and files are mapped and inspected in that order", "anchors": ["karabo_data/write_cxi.py:VirtualCXIWriter.write", "karabo_data/write_cxi.py:VirtualCXIWriter.collect_pulse_ids", "karabo_data/write_cxi.py:VirtualCXIWriter.collect_data", "karabo_data/components.py:MPxDetectorBase.write_virtual_cxi"]}
{"id": "C134", "title": "Narrowing sources and narrowing trains commute", "statement": "Whatever sequence of select, deselect and select_trains calls succeeds on a run (whose files agree on the keys and the kind of each source), making the calls on sources first and the calls on trains after them, each in their order, succeeds too and gives a collection with the same files, trains, sources, keys, arrays, dask arrays, counts, series and trains. The opposite order gives the same, or raises because the files with the selected trains lack a named source or a match for a pattern.", "quantifier": "every collection, every sequence of narrowing calls with any arguments", "why_tests_cant": "all sequences of calls", "anchors": ["karabo_data/reader.py:DataCollection.select", "karabo_data/reader.py:DataCollection.deselect", "karabo_data/reader.py:DataCollection.select_trains"]}
{"id": "C135", "title": "Joining parts of a collection gives the whole", "statement": "Parts of a collection can be joined with union without losing or changing anything. Parts selected by trains, joined, are the same as the selection of all their trains at once; parts selected by lists of patterns, joined, are the same as the selection with all the patterns; and what select takes, joined with what deselect with the same argument leaves, has the same trains, the same available sources and keys (besides any which select added), and gives for each field and train the same data as the original.", "quantifier": "all collections of files with different names, all lists of parts, all train selections, all pattern lists, all arguments of select and deselect, every order in which union takes the files, all fields and trains", "why_tests_cant": "A test joins a few parts of one run; the claim is about every way to split a collection and every order of the set of files.", "anchors": ["karabo_data/reader.py:DataCollection.union", "karabo_data/reader.py:DataCollection.select", "karabo_data/reader.py:DataCollection.deselect", "karabo_data/reader.py:DataCollection.select_trains"]}
{"id": "C136", "title": "A run written in parts can be read as one", "statement": "If parts of a run (made by select, deselect and select_trains), with no train of a source in common, are written to files with write or write_virtual and the files are opened together, the collection has the trains, sources and keys of the parts, and get_array gives for each field and each train in the parts exactly the entries, shape and type which it gives for the run. If each part is a range of trains and all trains are in the parts, it gives the same array. Parts selected by trains can always be written if the run can be and each part has data for each of its fields, provided the files of the run hold separate ranges of trains.", "quantifier": "all runs which can be written, all lists of parts, all choices of write or write_virtual for each part, any order of the files, all fields, trains and regions of interest", "why_tests_cant": "A test splits one run in one way; the claim is about every split and every mixture of kinds of files.", "anchors": ["karabo_data/reader.py:DataCollection.write", "karabo_data/reader.py:DataCollection.write_virtual", "karabo_data/reader.py:DataCollection.from_paths", "karabo_data/reader.py:DataCollection.get_array", "karabo_data/writer.py:FileWriter", "karabo_data/writer.py:VirtualFileWriter"]}
{"id": "C137", "title": "What is read does not depend on how the data is spread over files", "statement": "Two collections with the same trains, sources and keys and the same entries for each field and train hold the same data, in however many files it is. Reading them gives the same: the same entries for each train from get_array (the same array if both are in order), the same data for each train from train_from_id, the same trains with the same data from iterating, with and without require_all, the same counts from get_data_counts, the same rows for each train, with the same pulse IDs, from get_series, and the same columns from get_dataframe. Copies, copies of copies, the files in another order, and runs written in parts which together have all of it hold the same data.", "quantifier": "every pair of collections, every field, every train, every region of interest", "why_tests_cant": "a test compares one run in two layouts; the claim is about every way to spread any data over any number of files", "anchors": ["karabo_data/reader.py:DataCollection.get_array", "karabo_data/reader.py:DataCollection.train_from_id", "karabo_data/reader.py:DataCollection.trains", "karabo_data/reader.py:DataCollection.get_data_counts", "karabo_data/reader.py:DataCollection.get_series", "karabo_data/reader.py:DataCollection.get_dataframe", "karabo_data/writer.py:FileWriter.write", "karabo_data/reader.py:DataCollection.from_paths"]}
{"id": "C138", "title": "Narrowing goes with copies and other layouts of files", "statement": "If two collections hold the same data (C137), then select and deselect with patterns succeed for both or raise ValueError for both, and the results hold the same data; select_trains takes the same trains from both or raises the same exception, and the results hold the same data if the same sources have a file with one of these trains. So narrowing a copy and narrowing the original give the same data. Sources selected with the key pattern * must have all their keys selected before.", "quantifier": "every pair of collections with the same data, every copy and copy of a copy, every list of patterns, every way to select trains", "why_tests_cant": "a test narrows one run and one copy; the claim is about every selection from every layout of the files", "anchors": ["karabo_data/reader.py:DataCollection.select", "karabo_data/reader.py:DataCollection.deselect", "karabo_data/reader.py:DataCollection.select_trains", "karabo_data/writer.py:FileWriter.write"]}
{"id": "C139", "title": "Detector data does not depend on how it is spread over files", "statement": "Two collections which hold the same data (trains, sources, keys and entries of each field in each train), however it is spread over files, give the same detector interface (min_modules at least 1): same name, modules, trains and frames per train. get_array for keys of image. then gives the same modules, trains, pulses and entries; iterating gives the same trains, and for each of them the same keys, with the same modules, labels and frames, and the same data for keys outside image.", "quantifier": "every two collections with the same data, in any number of files split in any way; every pulse selection", "why_tests_cant": "the ways of splitting a run into files are unbounded", "anchors": ["karabo_data/components.py:MPxDetectorBase.__init__", "karabo_data/components.py:MPxDetectorBase.get_array", "karabo_data/components.py:MPxDetectorTrainIterator"]}
{"id": "C140", "title": "Virtual CXI files do not depend on how the data is spread over files", "statement": "Two collections which hold the same data, however it is spread over files, give virtual CXI files with the same contents (identifiers, pulse IDs, train IDs, module numbers, data_gain and all virtual datasets, entry by entry), or writing fails for both because of inconsistent pulse IDs. min_modules is at least 1, and the files are well-formed and agree on which image keys there are.", "quantifier": "every two collections with the same data, in any number of files split in any way; raw and corrected data", "why_tests_cant": "the ways of splitting a run into files are unbounded", "anchors": ["karabo_data/write_cxi.py:VirtualCXIWriter", "karabo_data/components.py:MPxDetectorBase.write_virtual_cxi"]}
{"id": "C141", "title": "Many images are assembled at once as each of them by itself", "statement": "position_modules_fast for data with leading dimensions (pulses, or trains and pulses) returns an array with the same leading dimensions; the image at each index, and the centre, are those returned for the data at this index alone, and where that raises an exception the call for all raises the same; the same holds with an output array, whose leading dimensions must be those of the data (AssertionError otherwise). output_array_for_position_fast with extra_shape makes an array which is the one without extra_shape at every index.", "quantifier": "every geometry, number and size of leading dimensions, data and output array", "why_tests_cant": "The shapes and values of arrays are unbounded; a test can only compare a few pulses.", "anchors": ["karabo_data/geometry2/__init__.py:DetectorGeometryBase.position_modules_fast", "karabo_data/geometry2/__init__.py:DetectorGeometryBase.output_array_for_position_fast", "karabo_data/geometry2/__init__.py:SnappedGeometry.position_modules", "karabo_data/geometry2/__init__.py:SnappedGeometry.make_output_array"]}
{"id": "C142", "title": "Images of stacked detector data show every module at its place", "statement": "If the data of a train can be stacked (one array for each of some modules, with the pixels of the detector in the last two dimensions), and the tiles of the geometry fit on the grid without overlap, then stack_detector_data followed by position_modules_fast gives one image for each pulse in which each pixel of module n of that pulse is at the cell where the geometry has this pixel of module n; cells of modules without data have the fill value, and cells not covered by a tile the value of a new array.", "quantifier": "every train, key, set of modules present, number of pulses, geometry and pulse", "why_tests_cant": "It is about every pixel, pulse and set of missing modules; the two functions are tested one by one.", "anchors": ["karabo_data/stacking.py:stack_detector_data", "karabo_data/geometry2/__init__.py:DetectorGeometryBase.position_modules_fast"]}
{"id": "C143", "title": "An output array can be used again and again", "statement": "After any number of images have been assembled into one array with position_modules_fast(out=...), assembling further data into it gives the same image as assembling these data into the array as it was at first, and raises the same exceptions: nothing of earlier images remains. An array made by output_array_for_position_fast with the dtype of the data gives the same image as no array.", "quantifier": "every geometry, sequence of data and array", "why_tests_cant": "It is about every history of calls on the same array.", "anchors": ["karabo_data/geometry2/__init__.py:DetectorGeometryBase.position_modules_fast", "karabo_data/geometry2/__init__.py:SnappedGeometry.position_modules"]}
{"id": "C144", "title": "A union shows nothing that the joined collections do not show", "statement": "Whatever the union of some collections gives for a field and a train, one of the joined collections gives too. True for collections which hide nothing of their files (as opened), for parts of one collection with the same trains, and for parts of one collection which all have the field. False in general: joining the data of source A in train 1 with the data of source B in train 2 also shows B in train 1 if both are in files of the parts. For any collections, exactly what the union shows is known: the entries of any file of any of them which has the source and the train.", "quantifier": "every list of collections, every field and train, every order of the files", "why_tests_cant": "Selections, trains and files combine in unboundedly many ways.", "anchors": ["karabo_data/reader.py:DataCollection.union"]}
{"id": "C145", "title": "From the files of a run to images of the detector", "statement": "For a collection of detector modules: if in a train each module has the same number of frames or none, then reading the train (train_from_id, or iterating with trains), stack_detector_data and position_modules_fast give an image for each frame, in which each pixel of each frame that the files have for a module is where the geometry has it. Modules without frames have the fill value, and there is nothing else in the image. A train with a single frame has no dimension of frames.", "quantifier": "every collection with data in good order, every train, number of frames and modules present, every geometry without overlaps", "why_tests_cant": "Files, trains, missing modules and geometries combine in unboundedly many ways; tests look at a few made-up arrays.", "anchors": ["karabo_data/reader.py:DataCollection.train_from_id", "karabo_data/reader.py:TrainIterator", "karabo_data/stacking.py:stack_detector_data", "karabo_data/geometry2/__init__.py:DetectorGeometryBase.position_modules_fast"]}
{"id": "C146", "title": "A loop over trains which stops early has seen right data", "statement": "A loop over run.trains() or over the trains of a detector gets items one by one, until there are no more, it is left, or an exception is raised for a train whose data cannot be read. The items got before are those of the first trains of the collection in order, each exactly what iterating over its train alone gives, and what train_from_id gives; the exception is the one which iterating over the next train alone raises: neither depends on the trains read before. The loop ends without exception exactly when list(run.trains()) gives a list, and then it has seen this list.", "quantifier": "all collections of files without conflicts, selections of sources and trains, detectors, selections of pulses, data which cannot be read in any train, and points at which the loop stops", "why_tests_cant": "the iterator keeps state (files and datasets found for earlier trains); whether an item depends on it concerns all histories of reading", "anchors": ["karabo_data/reader.py:TrainIterator", "karabo_data/reader.py:DataCollection.trains", "karabo_data/components.py:MPxDetectorTrainIterator", "karabo_data/components.py:MPxDetectorBase.trains"]}
{"id": "C147", "title": "Trains without data do not shift the data of others", "statement": "The index of a file may give any position for a train without entries. get_array still gives every other train its own entries. More generally, in each stretch of consecutive selected trains of a file, entries are taken one after the other from the position of the first train of the stretch, so the array is right exactly when the entries of the others follow on from there.", "quantifier": "all collections of files without conflicts, indexes (contiguous or not), selections of trains, sources and keys", "why_tests_cant": "depends on which trains are selected and on every position in the index; tests use files with contiguous indexes", "anchors": ["karabo_data/reader.py:DataCollection._find_data_chunks", "karabo_data/reader.py:DataCollection.get_array", "karabo_data/read_machinery.py:contiguous_regions"]}
{"id": "C148", "title": "Copies of files whose index has gaps", "statement": "For files whose index need not be contiguous, a copy made by write() or write_virtual() has, for each train, the entries which belong to it in the original files, and a contiguous index, so that any selection of trains from the copy is right too.", "quantifier": "every collection of files with any index, every selection of trains", "why_tests_cant": "the index of a train without data can hold any position; tests use files where it is contiguous", "anchors": ["karabo_data/writer.py:FileWriter.write", "karabo_data/writer.py:VirtualFileWriter", "karabo_data/reader.py:DataCollection._find_data_chunks"]}
{"id": "C149", "title": "Virtual CXI files of copies", "statement": "From a file written by write() or write_virtual(), and from copies of copies, the detector interface can be made if it can from the original, and a virtual CXI file made from it has the same contents as one made from the original (identifiers, pulse IDs, train IDs, module numbers, data_gain and all virtual datasets, entry by entry), or neither can be made because the pulse IDs of modules disagree.", "quantifier": "every collection of detector data whose fields can be written and which is fit for a CXI file, raw or corrected; every chain of write and write_virtual; every choice of modules and min_modules", "why_tests_cant": "the copies have other files, chunks and indexes than the original", "anchors": ["karabo_data/write_cxi.py:VirtualCXIWriter.write", "karabo_data/writer.py:FileWriter.write", "karabo_data/writer.py:VirtualFileWriter"]}
{"id": "C150", "title": "Lazy arrays of copies, selections and other layouts", "statement": "The lazy array of a file written with write or write_virtual always works and has the entries of get_array of the original. After any selections, and however the data is spread over files, lazy arrays have the same entries for the selected trains, in the same order if the files are in the order of trains, wherever they work; but whether they work depends on the files.", "quantifier": "every collection, number of copies, selections, and every pair of collections with the same data", "why_tests_cant": "get_dask_array raises ZeroDivisionError for some divisions of data into files and selections; tests have only a few of them, and no copies.", "anchors": ["karabo_data/reader.py:DataCollection.get_dask_array", "karabo_data/reader.py:DataCollection.write", "karabo_data/reader.py:DataCollection.select_trains"]}
{"id": "C151", "title": "Paths and axes in CXI files", "statement": "In a file written by write_virtual_cxi the train ID, pulse ID and name of each frame and the cell IDs are found below entry_1 as trainId, pulseId, experiment_identifier and cellId; the frames, as data, gain and mask, and everything else below entry_1/instrument_1/detector_1 is also found below entry_1/data_1. The attribute axes of a dataset of frames names its dimensions, as many as it has, and where a name is that of a dataset in the same group, this has one label for each entry along the dimension: experiment_identifier for frames, data_gain for gain stages, module_identifier for modules, each module number standing at the position of its data.", "quantifier": "every detector whose data can be written, raw or corrected, with any modules present", "why_tests_cant": "the tests look at shapes and check that there is an attribute axes; they do not follow it to labels, and would have to for each set of modules", "anchors": ["karabo_data/write_cxi.py:VirtualCXIWriter.write", "karabo_data/write_cxi.py:VirtualCXIWriter.nmodules", "karabo_data/components.py:MPxDetectorBase.write_virtual_cxi"]}
{"id": "C152", "title": "The text of the cache file", "statement": "The text which is saved for the cache of a run, read back, gives exactly the entries which were saved: file names, times, sizes, train IDs and sources, whatever characters the names have. A text which was cut short at any point, as after a full disk or a power failure, is never taken for a cache: opening the run with it gives the same as opening it with no such file.", "quantifier": "every list of entries, every name, every point at which the text is cut, every other cache file, every directory", "why_tests_cant": "a test can write and cut a few files; whether every cut of every text is noticed, and every name comes back, is a statement about all texts", "anchors": ["karabo_data/run_files_map.py:atomic_dump", "karabo_data/run_files_map.py:RunFilesMap.load", "karabo_data/run_files_map.py:RunFilesMap.save", "karabo_data/run_files_map.py:RunFilesMap.get"]}
{"id": "C153", "title": "A region of interest with a list of indices", "statement": "get_array with a list of indices in roi=by_index[...] gives exactly what numpy selects with it from the whole array, with the same train IDs, or raises an exception.", "quantifier": "every collection, source and key, every region with one list of indices next to any integers, slices and an ellipsis, every version of numpy and h5py as far as they differ", "why_tests_cant": "numpy computes the shape and h5py reads the data, with different rules; whether they agree is a statement about all regions and shapes", "anchors": ["karabo_data/reader.py:DataCollection.get_array", "karabo_data/reader.py:by_index"]}
{"id": "C154", "title": "The text of CrystFEL geometry files", "statement": "Read line by line, the text which is written as CrystFEL geometry file sets exactly the keys and values which were to be written, in order, and nothing else. Every tile has its corner and vectors in pixels exactly once, and two geometries of one detector which are written as the same text are the same geometry.", "quantifier": "every geometry, every path, mask and dimension name without semicolon, line break or blanks at its ends, and every way to write numbers which tells them apart", "why_tests_cant": "all geometries and options", "anchors": ["karabo_data/geometry2/crystfel_fmt.py:write_crystfel_geom", "karabo_data/geometry2/crystfel_fmt.py:frag_to_crystfel", "karabo_data/geometry2/crystfel_fmt.py:get_rigid_groups", "karabo_data/geometry2/crystfel_fmt.py:_crystfel_format_vec"]}
{"id": "C155", "title": "The bytes of stream messages", "statement": "A client which reads the bytes of a message (msgpack and the bridge protocol 2.2) gets for every source its metadata and all its values, arrays with all their elements, and nothing else. There are bytes for all data which is small enough for msgpack; a number or object which is too large or nested too deep is refused.", "quantifier": "every train dictionary, with objects nested to any depth", "why_tests_cant": "all data and all sizes", "anchors": ["karabo_data/export.py:ZMQStreamer._serialize", "karabo_data/export.py:ZMQStreamer.feed"]}
{"id": "C156", "title": "The text which info prints", "statement": "The lines printed by info give, in this order and in a fixed layout, the number of trains, a duration which reads as the time from the first to the last train, the first and last train ID, the detector modules with one example, the other instrument sources and the control sources. The text determines all of these: two collections (without commas and line breaks in names of sources) for which the same text is printed have the same values in it.", "quantifier": "every collection, every number of sources, every duration", "why_tests_cant": "all durations and all names", "anchors": ["karabo_data/reader.py:DataCollection.info"]}
{"id": "C157", "title": "The bytes of stream messages of protocol 1.0", "statement": "A client which reads the bytes of a message of protocol version 1.0 (one msgpack object, with msgpack_numpy for arrays and numbers) gets exactly the data and metadata which were fed: every source with every value, in order, and arrays with their type, shape and elements. There is a message exactly for data which are small enough for msgpack.", "quantifier": "every train dictionary, with arrays of any shape and objects nested to any depth", "why_tests_cant": "all data and all sizes", "anchors": ["karabo_data/export.py:ZMQStreamer._serialize", "karabo_data/export.py:ZMQStreamer.feed"]}
{"id": "C158", "title": "The line which lsxfel prints for a run", "statement": "The line for a run shows the name of its folder and the numbers of trains, detector files and other files, each in a column of fixed width unless the number needs more. The line determines all of them, for folders without a colon in their names.", "quantifier": "every run, every number of trains and files", "why_tests_cant": "all numbers and names", "anchors": ["karabo_data/lsxfel.py:summarise_run"]}
{"id": "C159", "title": "A boolean mask as region of interest", "statement": "get_array with roi=by_index[mask] gives, along the first dimension of each entry, the places where the mask is True, in order and for all entries, with the same train IDs as without region. A mask which is not as long as this dimension is refused with IndexError. A mask of this length with some True is accepted if there is data. A mask beside integers, slices and an ellipsis must be as long as its dimension, and then gives what the list of the places with True gives.", "quantifier": "every data, every mask", "why_tests_cant": "all masks and shapes", "anchors": ["karabo_data/reader.py:DataCollection.get_array"]}
