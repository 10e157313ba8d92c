{"id": "C01", "title": "Unformatted files: values do not depend on how the writer chunked them", "statement": "Reading values from an unformatted (.SIU) file with any sequence of read_floats(n) calls returns the values of the file in file order, without loss, duplication or reordering, no matter how the writing program distributed the values over physical records (1..32 floats each), as long as enough values are left.", "quantifier": "all sequences of physical float records, all sequences of request sizes", "why_tests_cant": "the set of chunkings and request sizes is infinite; sample files only exercise the chunkings one writer happened to produce", "anchors": ["freesif/sequentialparser/sequentialfiles.py:UnformattedFile.read_floats", "freesif/sequentialparser/sequentialfiles.py:UnformattedFile.read_floatrec", "freesif/sequentialparser/sequentialfiles.py:UnformattedFile.read_stringrec"]}
{"id": "C02", "title": "Unformatted record framing round trip and truncation", "statement": "If an unformatted file is a concatenation of framed records (length byte, at most 128 payload bytes, trailing byte; length byte 129 standing for 128 bytes), successive record reads return exactly the payloads in order, and a read past the last framed record raises instead of inventing data.", "quantifier": "all finite lists of payloads of length 0..128, all trailing bytes", "why_tests_cant": "byte-level framing has unboundedly many payload sequences, including payload bytes that look like length bytes", "anchors": ["freesif/sequentialparser/sequentialfiles.py:UnformattedFile.read_stringrec"]}
{"id": "C03", "title": "Formatted files: values come back in file order for every request pattern", "statement": "For a formatted file whose continuation lines carry four 16-character fields each (the last line of a record possibly fewer), any sequence of read_floats(n) calls within one record returns the record's values in order; when the record has fewer values than requested the result is simply the remaining prefix of what the lines read contain, never a value of a line beyond the ceil(k/4) lines accounted for.", "quantifier": "all value lists, all line fillings, all request sequences", "why_tests_cant": "interaction of leftover bookkeeping with ceil(n/4) line counting depends on every residue class and every history of requests", "anchors": ["freesif/sequentialparser/sequentialfiles.py:FormattedFile.read_floats", "freesif/sequentialparser/sequentialfiles.py:FormattedFile.read_floatrec", "freesif/sequentialparser/sequentialfiles.py:FormattedFile.tofloatrec"]}
{"id": "C04", "title": "Unread values never leak into the next record", "statement": "After any history of reads on a file (header, floats, partial floats, strings), reading a header record returns the contents of the next physical record, and the following read_floats starts with the values physically after that header: leftovers of the previous record are discarded.", "quantifier": "all reader states reachable by any history of read calls, both file kinds", "why_tests_cant": "requires reasoning over all histories of the hidden leftover buffer", "anchors": ["freesif/sequentialparser/sequentialfiles.py:UnformattedFile.read_headerrec", "freesif/sequentialparser/sequentialfiles.py:FormattedFile.read_headerrec", "freesif/sequentialparser/sequentialfiles.py:UnformattedFile.read_floats"]}
{"id": "C05", "title": "Skipping an unimplemented record lands on the next record", "statement": "Skipping a record (skip_restofrecord) consumes exactly that record, for any number of continuation records: blank-led continuation records, an NFIELD-counted result record with values split arbitrarily, text records, negative (-4 / -5) header records, and records without continuation whose successor has a recognised name; the header returned is the next record's header.", "quantifier": "all records of each layout with any number of continuation records, any following record", "why_tests_cant": "continuation counts and value patterns are unbounded; some value bit patterns could mimic names or blanks", "anchors": ["freesif/sequentialparser/sequentialfiles.py:SequentialFile.skip_restofrecord", "freesif/sequentialparser/sequentialfiles.py:UnformattedFile.skip_contrecs", "freesif/sequentialparser/sequentialfiles.py:allowed_record_names_b"]}
{"id": "C06", "title": "Every record name the converter can read is recognised when skipping", "statement": "The set of record names used to decide where a skipped record ends contains the name of every record type the converter has a reader for, so that skipping a record without continuation data never swallows a following readable record.", "quantifier": "all readable record names; all records in front of them", "why_tests_cant": "a test would need a file per (skipped record, following record) pair; the property is about the whole table of names", "anchors": ["freesif/sequentialparser/sequentialfiles.py:allowed_record_names_str", "freesif/sequentialparser/sequentialfiles.py:allowed_record_names_b", "freesif/sequentialparser/sequentialfiles.py:SequentialFile.skip_restofrecord", "freesif/sequentialparser/parsers.py:readers"]}
{"id": "C07", "title": "Conversion of a file always terminates", "statement": "parse_file (any `only` filter) on any finite file, well formed or not, either returns or raises, and each of its loops over records runs at most (file size + 2) times; no file content makes the record loops run forever. The same holds for get_recordcount.", "quantifier": "all finite byte/line sequences, all `only` filters", "why_tests_cant": "non-termination cannot be observed by a finite test and malformed inputs are unbounded", "anchors": ["freesif/sequentialparser/parsers.py:parse_file", "freesif/sequentialparser/parsers.py:general_parser", "freesif/sequentialparser/parsers.py:standard_record_reader", "freesif/sequentialparser/sequentialfiles.py:SequentialFile.skip_restofrecord"]}
{"id": "C08", "title": "One table row per record, in file order, whatever the number of records", "statement": "When a run of n records of one type is converted, the table gains exactly n rows in file order with exactly the cell values of the records, independent of the internal buffer size (100000) and of how many times the buffer is flushed.", "quantifier": "all n, all record contents, all buffer sizes >= 1", "why_tests_cant": "boundary behaviour at multiples of 100000 rows is impractical to test and holds for every n only by induction", "anchors": ["freesif/sequentialparser/parsers.py:recdata.add", "freesif/sequentialparser/parsers.py:recdata.write"]}
{"id": "C09", "title": "Variable length data: every row's start/stop slice is that record's own data", "statement": "For every record with variable length data the stored start and stop columns select from the accompanying array exactly the values that were on that record (an empty selection for records without data), also after buffer flushes, after earlier blocks of the same record type and with several arrays per table.", "quantifier": "all sequences of records and of variable length payloads, all buffer sizes, all previous contents of the array", "why_tests_cant": "offset bookkeeping across flushes and blocks is history dependent; sizes unbounded", "anchors": ["freesif/sequentialparser/parsers.py:vldata.add", "freesif/sequentialparser/parsers.py:vldata.write", "freesif/sequentialparser/parsers.py:recdata.add", "freesif/sequentialparser/parsers.py:recdata.write"]}
{"id": "C10", "title": "Fixed layout records: row equals the record's values padded or cut to the table columns", "statement": "For record types with a fixed column list the row stored for a record is the first ncols values of the record (header plus continuation), padded with zeros if the record is shorter, for both file kinds; reading a block consumes exactly the block.", "quantifier": "all record types read by the generic reader, all value lists, all numbers of records in the block", "why_tests_cant": "value lists and counts unbounded; padding/truncation interacts with chunking", "anchors": ["freesif/sequentialparser/parsers.py:standard_record_reader"]}
{"id": "C11", "title": "Optional trailing fields of section records are detected correctly", "statement": "For beam section records with optional trailing fields, the row holds the optional values when they are present on the file and zeros when they are absent (the next thing on the file being a record with a recognised name, or the end of a formatted file), and the following record is never swallowed, for both file kinds.", "quantifier": "all section record types, all values, all following records, all chunkings that keep the mandatory fields in their own records", "why_tests_cant": "presence detection depends on leftover state and on the following record's name", "anchors": ["freesif/sequentialparser/parsers.py:reader_optionalfields", "freesif/sequentialparser/sequentialfiles.py:UnformattedFile.at_headerrec", "freesif/sequentialparser/sequentialfiles.py:FormattedFile.at_headerrec"]}
{"id": "C12", "title": "Formatted and unformatted files with the same records convert to the same data", "statement": "If a formatted and an unformatted file contain the same sequence of logical records, parse_file produces the same groups, tables, rows and arrays from both.", "quantifier": "all sequences of logical records, all chunkings of the unformatted file", "why_tests_cant": "relational property over two infinite families of files", "anchors": ["freesif/sequentialparser/parsers.py:parse_file", "freesif/sequentialparser/sequentialfiles.py:UnformattedFile", "freesif/sequentialparser/sequentialfiles.py:FormattedFile"]}
{"id": "C13", "title": "`only` restricts the result without altering it", "statement": "Parsing a file with only=names produces exactly the tables of the named record types with the same rows and arrays as a full parse would produce, and the RECORDS attribute loses the other types; the other attributes stay the same. This holds for files whose named record types do not depend on others.", "quantifier": "all files made of well formed records, all subsets of record names", "why_tests_cant": "2^names subsets times all files", "anchors": ["freesif/sequentialparser/parsers.py:parse_file", "freesif/sequentialparser/sequentialfiles.py:SequentialFile.skip_restofrecord"]}
{"id": "C14", "title": "RECORDS attribute: exactly the record types read, once each, in order of first appearance", "statement": "After conversion the group's RECORDS attribute has no duplicates, contains a name exactly if a reader was invoked for it, and lists names in order of first appearance; _has_record answers accordingly.", "quantifier": "all record sequences", "why_tests_cant": "depends on arbitrary interleavings of record types", "anchors": ["freesif/sequentialparser/parsers.py:parse_file", "freesif/sequentialparser/parsers.py:general_parser", "freesif/data/sifdata.py:SifData._has_record"]}
{"id": "C15", "title": "Level and data type classification of a converted group", "statement": "The LEVEL/DATATYPE/FILETYPE attributes of a group are a function of the file letter, presence of hierarchy data and the level in it: T/L files at top of a hierarchy are TOPLEVEL, lower files INTERLEVEL iff their level > 1, R files FIRSTLEVEL unless they head a hierarchy with level > 1, G files are hydrodynamic; a T/L/R file is always classified structural.", "quantifier": "all file letters, all hierarchy contents", "why_tests_cant": "decision table over unbounded hierarchy content including missing hierarchy", "anchors": ["freesif/sequentialparser/parsers.py:parse_file", "freesif/sequentialparser/parsers.py:set_current_ihref", "freesif/sequentialparser/parsers.py:get_path"]}
{"id": "C16", "title": "Conversion result does not depend on earlier conversions in the session", "statement": "Converting a file gives the same result whatever files were converted before in the same Python session (including failed conversions).", "quantifier": "all histories of previous conversions, all files", "why_tests_cant": "quantifies over all histories of hidden module state", "anchors": ["freesif/sequentialparser/parsers.py:reset", "freesif/sequentialparser/parsers.py:elem_data", "freesif/sequentialparser/sif2hdf5.py:sif2hdf5"]}
{"id": "C17", "title": "Element connectivity is stored with the node count of the element type", "statement": "For every GELMNT1 record of a supported element type the stored connectivity slice has exactly the number of nodes of that type and equals the node numbers on the record in order; an unsupported element type raises and never stores a row with wrong connectivity.", "quantifier": "all element records, all types", "why_tests_cant": "all node lists and element sequences; error path for every unknown type", "anchors": ["freesif/sequentialparser/parsers.py:gelmnt1_reader", "freesif/sequentialparser/parsers.py:elem_types"]}
{"id": "C18", "title": "Per-node element references are stored exactly when flagged", "statement": "For a GELREF1 record each of GEONO/FIXNO/ECCNO/TRANSNO gets one value per element node stored iff its field is -1, in the order on the file, and an empty slice otherwise, for each of the 16 flag combinations.", "quantifier": "all flag combinations, all element types, all sequences of records", "why_tests_cant": "combinations x sequences; shared leftover buffer between four consecutive reads", "anchors": ["freesif/sequentialparser/parsers.py:gelref1_reader"]}
{"id": "C19", "title": "Element result records get nsp*lenrec*(icompl+1) values", "statement": "For every element result record (RVFORCES, RVSTRAIN, RVSTRESS) the stored slice has exactly nsp*lenrec*(1 or 2) values, nsp being the point count last declared for that element and point set, lenrec the component count last declared for the result type and the factor given by the result case; a record whose declarations are missing raises.", "quantifier": "all histories of declaration and result records", "why_tests_cant": "depends on the whole history of declarations", "anchors": ["freesif/sequentialparser/parsers.py:rvelmres_reader", "freesif/sequentialparser/parsers.py:rdpoints_reader", "freesif/sequentialparser/parsers.py:compdef_reader", "freesif/sequentialparser/parsers.py:rdresref_reader"]}
{"id": "C20", "title": "Node result records are stored completely", "statement": "For every node result record (RVNODDIS/VEL/ACC) all NFIELD-5 result values on the record are stored (for real and for complex result cases).", "quantifier": "all node result records, real and complex", "why_tests_cant": "quantifies over all record contents; complex cases are not covered by the test-suite's assertions", "anchors": ["freesif/sequentialparser/parsers.py:rvnodres_reader", "freesif/data/strucdata.py:FirstLevelData.get_noderesults"]}
{"id": "C21", "title": "Wave result references: directions, frequencies and times belong to their record", "statement": "For every WDRESREF record the dir/freq/time slices stored for the row are the ones on that record, and empty if the record does not carry that reference type.", "quantifier": "all sequences of WDRESREF records with any subset of reference types", "why_tests_cant": "state carried from record to record", "anchors": ["freesif/sequentialparser/parsers.py:wdresref_reader"]}
{"id": "C22", "title": "File name analysis returns the parts the name was built from", "statement": "For a name prefix+letter+number(+Hnumber)+'.'+extension with a prefix of word characters/hyphens that does not itself contain an extension-like substring, parse_sifname returns exactly these parts, in any letter case, and sif2hdf5 and open_sif agree about prefix, letter and extension; a name without such a structure raises ValueError.", "quantifier": "all prefixes, numbers and extensions", "why_tests_cant": "regular expression with non-greedy prefix, backtracking and ambiguity: infinite name space", "anchors": ["freesif/data/helpers.py:parse_sifname", "freesif/sequentialparser/sif2hdf5.py:sif2hdf5", "freesif/data/file.py:open_sif"]}
{"id": "C23", "title": "Lower level files looked for are exactly those implied by the hierarchy", "statement": "After converting a top level file with hierarchy data, the converter looks in the directory of the top file for exactly: one R<type>H<ref> file per first-level entry (results files) or one T<type> file per first repetition (input files), in hierarchy order, never the top entry, each parsed with its own hierarchy reference.", "quantifier": "all hierarchies, all prefixes, extensions", "why_tests_cant": "all hierarchy tables", "anchors": ["freesif/sequentialparser/sif2hdf5.py:sif2hdf5", "freesif/sequentialparser/parsers.py:set_current_ihref"]}
{"id": "C24", "title": "Argument validation of sif2hdf5", "statement": "append without an output name raises and writes nothing; a sequence of names with in_memory raises; a non-string, non-list/tuple name raises; a sequence with an output name converts all files into that one file (the first with the given append, the others appended); without output name each file gets its own output; a list as prefix of a single file raises TypeError, before anything is opened if the prefix of the file name is used.", "quantifier": "all argument combinations and name sequences of any length", "why_tests_cant": "sequence lengths unbounded; ordering of validation and side effects", "anchors": ["freesif/sequentialparser/sif2hdf5.py:sif2hdf5"]}
{"id": "C25", "title": "Closed objects refuse every operation", "statement": "After close() on a File (directly, or via any of its data objects) every dict-style operation on the File and every getter that returns data, on every data object of that file, raises ClosedFileError, forever (an illegal restype is refused with ValueError before that; the getters without implementation return None); close is idempotent on all of them; other open files are unaffected.", "quantifier": "all histories of open/close/operation calls over any number of files and data objects", "why_tests_cant": "all call histories", "anchors": ["freesif/data/file.py:File.close", "freesif/data/file.py:File._check_isopen", "freesif/data/sifdata.py:SifData._check_isopen", "freesif/data/sifdata.py:SifData.close"]}
{"id": "C26", "title": "close_all_files closes every open file", "statement": "close_all_files() closes all files opened so far and returns normally.", "quantifier": "all sets of open files", "why_tests_cant": "any number of open files; depends on set mutation during iteration", "anchors": ["freesif/data/file.py:close_all_files", "freesif/data/file.py:File.close"]}
{"id": "C27", "title": "Connectivity and coordinates match for every selection", "statement": "For every combination of sets, kind and disconnected, get_elements and get_nodes called with the same arguments fit together: the i-th connectivity entry indexes a node row holding the coordinates of the node originally listed at that place of that element.", "quantifier": "all models (nodes, elements, sets), all selections", "why_tests_cant": "all models and selections; relabelling must be an order isomorphism for each", "anchors": ["freesif/data/strucdata.py:FirstLevelData.get_elements", "freesif/data/strucdata.py:FirstLevelData.get_nodes", "freesif/data/strucdata.py:FirstLevelData._update_connectivity", "freesif/data/strucdata.py:FirstLevelData._get_nodeindices"]}
{"id": "C28", "title": "Offsets delimit the elements", "statement": "The offset array of get_elements has one entry per returned element, is non-decreasing, ends at the length of the connectivity, and consecutive offsets delimit exactly the node list of the corresponding element; types array corresponds.", "quantifier": "all models, all selections", "why_tests_cant": "all models and selections", "anchors": ["freesif/data/strucdata.py:FirstLevelData.get_elements", "freesif/data/sifdata.py:SifData._get_varlendata"]}
{"id": "C29", "title": "Set selection is the union of the named sets", "statement": "Element selection by a sequence of set names equals the set-theoretic union of the members of all records of all named sets of the element kind, each once in increasing order, independent of the order and repetition of names; an unknown name raises; a name denotes the set of its first definition.", "quantifier": "all set tables and name sequences", "why_tests_cant": "all set definitions split over any number of records", "anchors": ["freesif/data/strucdata.py:FirstLevelData._get_setmember_indices", "freesif/data/helpers.py:getrow"]}
{"id": "C30", "title": "Kind selection partitions the supported elements", "statement": "'beam' and 'shell' selections are disjoint, each element of a supported type is in exactly one of them, selection preserves element order, combining sets and kind is the intersection, and any other kind string raises ValueError.", "quantifier": "all models", "why_tests_cant": "all models", "anchors": ["freesif/data/strucdata.py:FirstLevelData._get_elementkind_indices", "freesif/data/strucdata.py:FirstLevelData._get_elementindices"]}
{"id": "C31", "title": "Node and element numbers line up with nodes and elements", "statement": "get_nodenumbers/get_elementnumbers called with a selection return, position by position, the external (or internal) numbers of the nodes/elements returned by get_nodes/get_elements for the same selection.", "quantifier": "all models, all selections", "why_tests_cant": "all models and selections", "anchors": ["freesif/data/strucdata.py:FirstLevelData.get_nodenumbers", "freesif/data/strucdata.py:FirstLevelData.get_elementnumbers"]}
{"id": "C32", "title": "Node results line up with nodes", "statement": "For a results file holding real node results sorted by result case and node with every requested case complete, get_noderesults returns for result case k and node position i the six values of the record of that case and that node, for every selection (including disconnected); it is independent of order and repetition in rescases; mixing real and complex cases raises ResultError.", "quantifier": "all models, result tables and selections", "why_tests_cant": "reshape and take based alignment must hold for all sizes", "anchors": ["freesif/data/strucdata.py:FirstLevelData.get_noderesults", "freesif/data/strucdata.py:FirstLevelData._get_resrefs"]}
{"id": "C33", "title": "Hierarchy transformation is the product along the path to the requested level", "statement": "get_transformation(seltyp, index, level) returns the product, in row-vector order, of the transformation matrices along the parent chain from the superelement up to the requested level, identity for level 1, HierarchyError for levels above top, below 1 or not on the path, and it terminates for every hierarchy in which parents exist and levels strictly increase upwards.", "quantifier": "all hierarchies of any depth", "why_tests_cant": "unbounded depth; loops on malformed hierarchies", "anchors": ["freesif/data/strucdata.py:TopLevelData.get_transformation", "freesif/data/helpers.py:getrow"]}
{"id": "C34", "title": "Nodes of a sub-superelement can be transformed to a hierarchy level", "statement": "For a first level superelement belonging to a hierarchy, get_nodes(trans=level) or trans='top' returns coordinates transformed with the matrix get_transformation gives for it.", "quantifier": "all hierarchies, all first level elements", "why_tests_cant": "constructor wiring for every hierarchy", "anchors": ["freesif/data/strucdata.py:FirstLevelData.__init__", "freesif/data/strucdata.py:FirstLevelData.get_nodes", "freesif/data/strucdata.py:FirstLevelData.__init__", "freesif/data/file.py:File.__init__"]}
{"id": "C35", "title": "Wave directions and frequencies: distinct values in order of first appearance", "statement": "get_directions and get_angular_freqs return each distinct value on the file exactly once in order of first appearance; their counts define the domain type.", "quantifier": "all reference tables", "why_tests_cant": "all value sequences including repeats", "anchors": ["freesif/data/hydrodata.py:HydroData.__init__"]}
{"id": "C36", "title": "RAO arrays are indexed (component, direction, frequency)", "statement": "With result records ordered by direction then frequency, the array returned by get_motion_raos/get_excitationforce_raos/get_meandrift/get_horiz_meandrift has at [c,i,j] component c of the record of direction i and frequency j; section forces and fluid kinematics correspondingly; a record count not equal to ndirs*nfreqs raises.", "quantifier": "all numbers of directions/frequencies/points/sections and all values", "why_tests_cant": "index arithmetic must hold for all shapes", "anchors": ["freesif/data/hydrodata.py:HydroData.get_motion_raos", "freesif/data/hydrodata.py:HydroData.get_sectionforce_raos", "freesif/data/hydrodata.py:HydroData.get_fluidkinematics_raos", "freesif/data/hydrodata.py:HydroData.get_panel_pressures"]}
{"id": "C37", "title": "Matrices are selected by body pair and type", "statement": "get_matrix(mtyp, b1, b2) returns the first matching 6x6 matrix for frequency independent types, and for frequency dependent types the array whose [i,j,k] is entry (i,j) of the k-th matching record; unknown type raises ValueError, missing body or matrix raises ConditionError.", "quantifier": "all matrix tables, bodies and types", "why_tests_cant": "all tables", "anchors": ["freesif/data/hydrodata.py:HydroData.get_matrix", "freesif/data/hydrodata.py:HydroData._get_ibcond"]}
{"id": "C38", "title": "Principal stresses are the eigenvalues of the plane stress tensor", "statement": "principal2d returns P1 >= P2, both eigenvalues of [[sxx,txy],[txy,syy]] and no other eigenvalue exists, for all real stresses (exact arithmetic).", "quantifier": "all real stress triples", "why_tests_cant": "continuum of inputs", "anchors": ["freesif/calc/principal.py:principal2d"]}
{"id": "C39", "title": "von Mises stress agrees with principal stresses and is a norm-like measure", "statement": "vonmises2d(s)^2 = p1^2 - p1 p2 + p2^2 with (p1,p2)=principal2d(s); it is >= 0, 0 only for zero stress, absolutely homogeneous and independent of the sign of shear.", "quantifier": "all real stress triples", "why_tests_cant": "continuum of inputs", "anchors": ["freesif/calc/vonmises.py:vonmises2d", "freesif/calc/principal.py:principal2d"]}
{"id": "C40", "title": "Thick shell principal stress reduces to the plane one without transverse shear", "statement": "principal_thickshell with zero transverse shear gives the principal2d values; in general it returns the largest and smallest eigenvalue after removing one of smallest magnitude, whatever order the eigenvalue solver returns.", "quantifier": "all real stress five-tuples, all orders of eigenvalues", "why_tests_cant": "continuum of inputs and solver orderings", "anchors": ["freesif/calc/principal.py:principal_thickshell"]}
{"id": "C41", "title": "absmax is the signed value of largest magnitude", "statement": "absmax returns an element of the array whose magnitude is >= that of every element; on a tie between v and -v it returns the positive one.", "quantifier": "all non-empty real arrays", "why_tests_cant": "all arrays", "anchors": ["freesif/calc/general.py:absmax"]}
{"id": "C42", "title": "find_elemres_indices finds the result position of a (element,node) pair", "statement": "For every requested pair whose node belongs to the element the returned index lies within that element's position range and holds that node, and is the last such position; the result is in request order.", "quantifier": "all element/node numberings and request lists", "why_tests_cant": "all models and request lists", "anchors": ["freesif/calc/general.py:find_elemres_indices"]}
{"id": "C43", "title": "Extrapolation of results to nodes is exact for linear fields", "statement": "The matrices that extrapolate result point values to nodes for 3-node beams, 6-node triangles and 8-node quads reproduce constants exactly and linear (bilinear for quads) fields exactly at the node positions; surface extrapolation is exact for fields linear through the thickness.", "quantifier": "all real coefficient choices", "why_tests_cant": "continuum of fields", "anchors": ["freesif/data/strucdata.py:FirstLevelData.xquad", "freesif/data/strucdata.py:FirstLevelData.xtri", "freesif/data/strucdata.py:FirstLevelData.xbm3", "freesif/data/strucdata.py:FirstLevelData._extrapolate_to_surface"]}
{"id": "C44", "title": "Membrane/bending decomposition recombines to the surface stresses", "statement": "For thin and thick shells membrane+bending equals the upper surface stress and membrane-bending the lower surface stress for every component, and decomposition commutes with extrapolation to nodes.", "quantifier": "all real stress values at any number of points", "why_tests_cant": "continuum of inputs", "anchors": ["freesif/data/strucdata.py:FirstLevelData._decompose_stresses_thin", "freesif/data/strucdata.py:FirstLevelData._decompose_stresses_thick"]}
{"id": "C45", "title": "VTU output is well formed XML for every legal call sequence", "statement": "For every sequence of writer calls with supported data that ends with close, the emitted file is a balanced element sequence VTKFile/UnstructuredGrid/Piece*/... with PointData/CellData only inside a Piece and each Piece holding Points and Cells first; illegal calls raise VtkError without emitting.", "quantifier": "all call sequences", "why_tests_cant": "all interleavings of calls", "anchors": ["freesif/utils/writers.py:VtuWriter"]}
{"id": "C46", "title": "Reordering for VTK is a per-element permutation that leaves other elements alone", "statement": "Passing connectivity or element-node results to the writer permutes entries only within the slots of each element, and according to the VTK node order for that type; elements of types without reordering are unchanged; data outside is untouched.", "quantifier": "all offsets/types arrays and data", "why_tests_cant": "in-place slicing over unbounded element sequences", "anchors": ["freesif/utils/writers.py:_reorder_data", "freesif/utils/writers.py:sesam2vtk_connectivity", "freesif/utils/writers.py:sesam2vtk_elemresults"]}
{"id": "C47", "title": "VTU binary payload decodes to the array with correct byte count", "statement": "Every data array is written as base64 of an 8-byte little endian byte count followed by the raw bytes; decoding yields the count of the raw bytes and the same bytes, for every array size.", "quantifier": "all arrays", "why_tests_cant": "all lengths modulo 3 and all byte values", "anchors": ["freesif/utils/writers.py:VtuWriter._write_array"]}
{"id": "C48", "title": "A formatted file can be written record by record", "statement": "FormattedFile(mode 'w').write_record(name, values) writes a record that reading back yields the same name and values.", "quantifier": "all records", "why_tests_cant": "all records; currently contradicted by the code", "anchors": ["freesif/sequentialparser/sequentialfiles.py:FormattedFile.write_record", "freesif/sequentialparser/sequentialfiles.py:FormattedFile._write_line"]}
{"id": "C49", "title": "Record counting", "statement": "get_recordcount returns, for each record name, the number of header records with that name on the file (with the terminating blank counted once).", "quantifier": "all well formed files", "why_tests_cant": "all files", "anchors": ["freesif/sequentialparser/sequentialfiles.py:SequentialFile.get_recordcount"]}
{"id": "C50", "title": "Element results line up with element nodes", "statement": "get_elementresults for beams and shells returns for each selected element, in record order, one row per element node (2,3,4,3,6,8 rows for types 15,23,24,25,26,28) obtained from that element's own record; so the total number of rows equals the connectivity length of get_elements for the corresponding selection.", "quantifier": "all models and result tables", "why_tests_cant": "all mixes of element types", "anchors": ["freesif/data/strucdata.py:FirstLevelData.get_elementresults", "freesif/data/strucdata.py:FirstLevelData._process_element_results"]}
{"id": "C51", "title": "Element sections and thicknesses are looked up by geometry number", "statement": "get_section_properties/get_shell_thicknesses return for each selected beam/shell, in element order, the property row whose geometry number is the element's; a geometry number without a property row raises.", "quantifier": "all models", "why_tests_cant": "all models", "anchors": ["freesif/data/strucdata.py:FirstLevelData.get_section_properties", "freesif/data/strucdata.py:FirstLevelData.get_shell_thicknesses"]}
{"id": "C52", "title": "Panel ids and panel pressures line up", "statement": "For a body whose panels are listed on the file in increasing order, get_pressure_panel_ids returns the panel numbers in that order and get_panel_pressures has at [panel i, direction, frequency] the pressure of the i-th of these panels; a body without panels raises.", "quantifier": "all numbers of panels, directions, frequencies and all values", "why_tests_cant": "index arithmetic must hold for all shapes; the two getters select panels in different ways", "anchors": ["freesif/data/hydrodata.py:HydroData.get_panel_pressures", "freesif/data/hydrodata.py:HydroData.get_pressure_panel_ids"]}
{"id": "C53", "title": "Section, point and body tables", "statement": "get_sections and get_points return the rows on the file in order; get_bodyproperties(b) returns the properties of exactly body b and raises for a body that is not on the file.", "quantifier": "all tables", "why_tests_cant": "all tables", "anchors": ["freesif/data/hydrodata.py:HydroData.get_sections", "freesif/data/hydrodata.py:HydroData.get_points", "freesif/data/hydrodata.py:HydroData.get_bodyproperties"]}
{"id": "C54", "title": "A File maps every superelement to its data object", "statement": "After open_hdf5 the File holds for every group, under its name, and for every superelement below it, under 'parent/child', one data object of its own: of the class its attributes ask for, reading that group. keys, values, items, [], get and 'in' agree on this mapping; a missing key raises KeyError, gives None, gives False. open_sif gives the object of the group with the name of the file.", "quantifier": "all HDF5 files and all earlier sessions", "why_tests_cant": "any number of groups and subgroups; currently contradicted by the code for groups whose data type is not known", "anchors": ["freesif/data/file.py:File.__init__", "freesif/data/file.py:File.__getitem__", "freesif/data/file.py:open_sif"]}
{"id": "C55", "title": "The data object has what the file describes", "statement": "After converting a formatted or unformatted structural file, the tables read through the data object are exactly what the records of the file say: nodes, coordinates, elements, sets and members, result cases, node and element results, geometry references, sections, thicknesses, names of load cases, transformations, superelement hierarchy; a record type that is not on the file has no table.", "quantifier": "all well formed files of both kinds, any number and order of blocks", "why_tests_cant": "conversion, storage and reading back must compose for every file; tests use two sample files", "anchors": ["freesif/sequentialparser/parsers.py:parse_file", "freesif/data/strucdata.py:FirstLevelData.__init__", "freesif/data/sifdata.py:SifData._get_record"]}
{"id": "C56", "title": "Connectivity and coordinates of the file", "statement": "For a file that describes a mesh, converting it and calling get_elements and get_nodes with any selection by sets and kind gives connectivity entries that lead to the coordinates written on the file for the nodes of the selected elements; offsets delimit the elements, types are those of the file.", "quantifier": "all well formed files of both kinds, all meshes, all selections", "why_tests_cant": "end to end over reader, parser, storage and selection", "anchors": ["freesif/sequentialparser/parsers.py:parse_file", "freesif/data/strucdata.py:FirstLevelData.get_elements", "freesif/data/strucdata.py:FirstLevelData.get_nodes"]}
{"id": "C57", "title": "Names of sets and load cases", "statement": "get_setnames returns the names of all sets in file order, None if there are none. get_resultcase_names maps each load case number that is asked for (all by default) and is named on the file to its name; without names on the file it raises.", "quantifier": "all files", "why_tests_cant": "all numbers of sets and load cases, repeated numbers", "anchors": ["freesif/data/strucdata.py:FirstLevelData.get_setnames", "freesif/data/strucdata.py:FirstLevelData.get_resultcase_names"]}
{"id": "C58", "title": "Results and sections of the file", "statement": "For a file that describes a mesh and results, converting it and calling get_noderesults (disconnected only with a selection or if all nodes are used) gives for each wanted case and selected node the six values on the file for that case and node; get_elementresults gives for each selected element of a kind with the same result axes the rows computed from that element's record on the file; get_section_properties and get_shell_thicknesses give the section records on the file with the elements' geometry numbers.", "quantifier": "all well formed files of both kinds, all meshes, results and selections", "why_tests_cant": "end to end over reader, parser, storage and result extraction", "anchors": ["freesif/sequentialparser/parsers.py:parse_file", "freesif/data/strucdata.py:FirstLevelData.get_noderesults", "freesif/data/strucdata.py:FirstLevelData.get_elementresults", "freesif/data/strucdata.py:FirstLevelData.get_section_properties"]}
{"id": "C59", "title": "Hydrodynamic results of the file", "statement": "For a hydrodynamic results file with a reference record for every direction and frequency, converting it and opening it gives the directions, frequencies, gravity, density and depth on the file; motions, exciting forces and drift forces at [component, direction, frequency], section forces at [section, component, direction, frequency], fluid kinematics at [point, (component,) direction, frequency], panel pressures at [panel, symmetry part, direction, frequency], matrices and body properties are the numbers on the body's records on the file.", "quantifier": "all well formed files of both kinds, any number of directions, frequencies, bodies, sections, points and panels", "why_tests_cant": "end to end over reader, parser, storage and result extraction; tests use one file with one body", "anchors": ["freesif/sequentialparser/parsers.py:parse_file", "freesif/data/hydrodata.py:HydroData.__init__", "freesif/data/hydrodata.py:HydroData.get_motion_raos", "freesif/data/hydrodata.py:HydroData.get_sectionforce_raos", "freesif/data/hydrodata.py:HydroData.get_fluidkinematics_raos"]}
{"id": "C60", "title": "Missing newline at the end of a formatted file", "statement": "A formatted file whose last line has no newline behaves, for every sequence of calls and for conversion, exactly as the file with a newline in place of the last character of that line: that character is lost, nothing else changes. So a number at the very end is read without its last digit, and a bare IEND is not recognised.", "quantifier": "all files whose last line has at least nine characters, all sequences of calls, all states of the module", "why_tests_cant": "a relation between two runs, for all files and all call sequences", "anchors": ["freesif/sequentialparser/sequentialfiles.py:FormattedFile.read_stringrec", "freesif/sequentialparser/parsers.py:parse_file"]}
{"id": "C61", "title": "Creating a VtfData object", "statement": "VtfData(name, description) gives an empty model with that name and description, identifiers counted from 1. (False of the code: AttributeError for every name and description.)", "quantifier": "all names, descriptions and derived classes", "why_tests_cant": "quantifies over all derived classes; the code has no test of this class", "anchors": ["freesif/utils/vtfdata.py:VtfData.__init__"]}
{"id": "C62", "title": "Opening a file and reading its objects", "statement": "In any session, open_sif on a SESAM file returns the object of its superelement, and a File with an object for every superelement of its hierarchy found on disk; every object gives the data of the records of its own file. The same holds for sif2hdf5 followed by open_hdf5, next to what was converted into the HDF5 file before. If the number in the file name is not the superelement type on the file, open_sif raises KeyError and leaves the File open; if the letter of the file name is lower case it raises UnboundLocalError.", "quantifier": "all sessions of any length, all files, hierarchies and disks, any order of the groups in the HDF5 file", "why_tests_cant": "end to end from the file name to the data read, for any history of other opened, converted and closed files", "anchors": ["freesif/data/file.py:open_sif", "freesif/data/file.py:open_hdf5", "freesif/data/file.py:File.__init__", "freesif/sequentialparser/sif2hdf5.py:sif2hdf5", "freesif/data/sifdata.py:SifData._get_record"]}
{"id": "C63", "title": "Sessions with several open files", "statement": "While a file opened with open_sif is open, open_sif on a file with the same name raises ValueError and changes nothing; closing the File (or an object of it) frees the name and no other. An open object reads the same data whatever is opened, converted or closed in the meantime; objects of a closed File raise. sif2hdf5 into an HDF5 file that is open for reading raises ValueError if the full path is given, otherwise HDF5ExtError unless another file is open under the name given, and changes no file and no object. All this holds although the current directory and the files that are read may change between the calls.", "quantifier": "all sessions of any length, all files", "why_tests_cant": "quantifies over all histories of calls; tests open one file at a time", "anchors": ["freesif/data/file.py:open_sif", "freesif/data/file.py:File.close", "freesif/data/sifdata.py:SifData.close", "freesif/sequentialparser/sif2hdf5.py:sif2hdf5"]}
{"id": "C64", "title": "Files that cannot be converted", "statement": "If a file holds an element of an unsupported type, references of an element that is nowhere declared, a concept that is neither beam nor frame joint, a mesh concept with several representations, results without the declarations they need, surface elevations with impossible flags, more or fewer values than a row of its table has, \"not a number\" or an infinity where a row has an integer (also in the first or a later row of the hierarchy), or no integer (nothing, \"not a number\", an infinity) where one is needed to read on, or a record of which only the name is there (even if its name has no table), sif2hdf5 raises (KeyError, NotImplementedError, ZeroDivisionError, UnboundLocalError, ValueError, OverflowError, IndexError as listed), whatever convertible, void, unread or unselected records come before it; the same if this is the case on a lower level file that is found. A file whose identification, or hierarchy, has no integer for the superelement type raises IndexError, ValueError or OverflowError and leaves nothing behind, whatever its level; if only the level or the model number is missing, or the first row of the hierarchy has no number of subelements or cannot be stored, an empty table stays. A file without a superelement type before the first record of a table raises NameError; a lower level file with no record for a table raises NoSuchNodeError. The messages for lower level files that were missing before it are printed, nothing else, and no file but the output file is changed.", "quantifier": "all files of both kinds with such a record at any place, all hierarchies and earlier conversions", "why_tests_cant": "quantifies over all files up to the wrong record; the error must not depend on what was read before", "anchors": ["freesif/sequentialparser/parsers.py:parse_file", "freesif/sequentialparser/parsers.py:get_path", "freesif/sequentialparser/parsers.py:gelmnt1_reader", "freesif/sequentialparser/parsers.py:sconcept_reader", "freesif/sequentialparser/parsers.py:sconmesh_reader", "freesif/sequentialparser/sif2hdf5.py:sif2hdf5"]}
{"id": "C65", "title": "Line ends and directories do not matter", "statement": "sif2hdf5 on a formatted file gives the same result, output file and messages whether lines end with line feed, carriage return and line feed, or carriage return, in the file and in its lower level files, mixed in any way. A relative file name means the file in the current directory; with absolute names of input and output the result does not depend on the current directory. If a file is open for reading under the name given for the output, or some file is open under this name and the output is to be overwritten, sif2hdf5 raises ValueError; if the output file is open for reading under another name, or was left open by a conversion that raised and is to be overwritten, it raises HDF5ExtError; neither changes a file.", "quantifier": "all formatted files and hierarchies, all mixtures of line ends, all directories and options", "why_tests_cant": "a relation between runs on different files and directories; tests run on one platform with one convention", "anchors": ["freesif/sequentialparser/sif2hdf5.py:sif2hdf5", "freesif/sequentialparser/sequentialfiles.py:FormattedFile.__init__"]}
{"id": "C66", "title": "Selections without elements or nodes", "statement": "get_elements and get_nodes with a selection that matches no element raise ValueError, while get_elementnumbers gives an empty array; get_elements with a selection of elements none of which has nodes raises ValueError, and with disconnected=True gives an empty connectivity.", "quantifier": "all models, sets and kinds", "why_tests_cant": "quantifies over all models and selections; tests select non-empty sets", "anchors": ["freesif/data/strucdata.py:FirstLevelData.get_elements", "freesif/data/strucdata.py:FirstLevelData.get_nodes"]}
{"id": "C67", "title": "Void records", "statement": "A record whose first field is negative and that stands between records of different types, the first not of its own type, leaves no trace: sif2hdf5 gives the same output with and without it. (If nothing but the end of a formatted file follows, the first of these records must have all its values.) A record whose first field is negative behind a record of its own type is stored as a row like any other.", "quantifier": "all files of both kinds, all places of the record, all record selections, all buffer sizes", "why_tests_cant": "a relation between conversions of different files, for every place of the record in a file of any length", "anchors": ["freesif/sequentialparser/parsers.py:parse_file"]}
{"id": "C68", "title": "Descriptions of files and objects", "statement": "str of an open File has one line for each of its objects, in the order of their names, with the name and the level and kind of data of the group; str of an object is that description, repr its group name. repr of a File with one object is the repr of the object, with two or more objects it raises TypeError. A closed File, and its objects, say that they are closed, whatever is called afterwards.", "quantifier": "all HDF5 files with any number of groups, all sessions", "why_tests_cant": "quantifies over all files and histories of calls; tests do not print", "anchors": ["freesif/data/file.py:File.__str__", "freesif/data/file.py:File.__repr__", "freesif/data/sifdata.py:SifData.__str__", "freesif/data/sifdata.py:SifData.__repr__"]}
{"id": "C69", "title": "Numbers are stored in single precision", "statement": "Floating point numbers of SESAM files are stored as the nearest number of IEEE single precision (of two equally near ones the one with last bit 0; infinity if it is too large). Numbers of unformatted files, and whole numbers up to 2^24, come back exactly; a field of a formatted file is a decimal numeral, rounded to a double and then to single precision; text that is no numeral, inf or nan raises ValueError.", "quantifier": "all bit patterns, all numerals of any length, all numbers; all record types with floating point columns", "why_tests_cant": "quantifies over all bit patterns and all numerals; tests compare a few values with tolerances", "anchors": ["freesif/sequentialparser/parsers.py:get_table", "freesif/sequentialparser/sif2hdf5.py:sif2hdf5", "freesif/sequentialparser/sequentialfiles.py:UnformattedFile.read_floats", "freesif/sequentialparser/sequentialfiles.py:FormattedFile.read_floats"]}
{"id": "C70", "title": "What objects give does not depend on other calls", "statement": "The object that open_sif returns for a SESAM file on disk gives, from its getters, what the records of that file describe: connectivity, offsets and coordinates that belong together for any selection of elements, the node and element results of the wanted result cases, cross sections and thicknesses, names of sets; for a hierarchy the object of each first level superelement gives what the file of that superelement describes. It gives the same after any other calls that do not close its File: opening or converting other files (also ones that raise), closing other Files and their objects. The File holds the same objects under the same names all the time.", "quantifier": "all files on disk, all states a session can reach, all sequences of calls of any length", "why_tests_cant": "quantifies over all sequences of calls and all files; tests open one file and read it at once", "anchors": ["freesif/data/file.py:open_sif", "freesif/data/file.py:File.__init__", "freesif/data/file.py:File.close", "freesif/data/sifdata.py:SifData.close", "freesif/sequentialparser/sif2hdf5.py:sif2hdf5", "freesif/data/strucdata.py:FirstLevelData.get_elements", "freesif/data/strucdata.py:FirstLevelData.get_nodes"]}
{"id": "C71", "title": "A mesh and its results written to a VTU file", "statement": "The arrays returned by get_nodes and get_elements, handed to VtuWriter.new_piece, give a VTU file that shows the selected elements: one point for each node of the selection at its position, one cell for each element with the VTK type for its SESAM type, whose points are those of the nodes of that element in VTK order. The array of get_noderesults for one result case, or its first columns, handed to add_data, becomes point data in which the values at each point are those of the node of that point. With disconnected=True the array of get_elementresults at the nodes, handed to add_data_cellpoints, becomes point data in which the rows of each element are those obtained from its own record, in the order in which the results of the element are rearranged. General stresses and complex results are refused and leave the writer as it was. A selection with an element whose type has no VTK cell type, or without elements, is refused by new_piece, and close then always raises.", "quantifier": "all models, selections by sets and kinds, connected or not, result cases, number types; all files on disk and all calls in between", "why_tests_cant": "quantifies over all models and results; tests write small arrays and do not read the file back", "anchors": ["freesif/data/strucdata.py:FirstLevelData.get_elements", "freesif/data/strucdata.py:FirstLevelData.get_nodes", "freesif/data/strucdata.py:FirstLevelData.get_noderesults", "freesif/data/strucdata.py:FirstLevelData.get_elementresults", "freesif/utils/writers.py:VtuWriter.new_piece", "freesif/utils/writers.py:VtuWriter.add_data", "freesif/utils/writers.py:VtuWriter.add_data_cellpoints", "freesif/utils/writers.py:VtuWriter.close"]}
{"id": "C72", "title": "Start and stop of arrays a record has no items for", "statement": "In every row of a table of the HDF5 file that sif2hdf5 writes, the start and stop columns of an array select the items of the record of that row if the record has items for the array. If it has none, they are both 0 in the first of the records of the type that follow each other directly in the file, and those of the row before in the others. So the row of a wave result reference selects, for each type of reference, the pairs of the latest record up to its own, of those that follow each other directly, that has the type, and nothing if there is none.", "quantifier": "all files of both kinds, all record types, records and arrays, all buffer sizes", "why_tests_cant": "quantifies over all orders and numbers of records in a file", "anchors": ["freesif/sequentialparser/parsers.py:wdresref_reader", "freesif/sequentialparser/parsers.py:general_parser"]}
{"id": "C73", "title": "What conversions leave behind for later ones", "statement": "Of all that earlier calls of sif2hdf5 have left behind in memory, successful or not, a call depends on the types of elements only: in two sessions with the same files and the same known element types it returns or raises the same, for any arguments. After the conversion of a file the known type of an element number is that of the last element record of the file with this number, and what was known before if there is none. A file that describes elements it does not define is converted with the types known.", "quantifier": "all files, arguments and sessions; all sequences of conversions", "why_tests_cant": "quantifies over all histories of a session", "anchors": ["freesif/sequentialparser/parsers.py:reset", "freesif/sequentialparser/parsers.py:gelmnt1_reader", "freesif/sequentialparser/parsers.py:gelref1_reader", "freesif/sequentialparser/sif2hdf5.py:sif2hdf5"]}
{"id": "C74", "title": "Appending keeps what is in the output file", "statement": "sif2hdf5 with append, for any arguments and whatever the input files hold, whether it returns or raises, keeps every table of every output file as it was, and every group. If several files are converted into one HDF5 file, what the conversion of the first has written is kept, with or without append, whether the others can be converted or not.", "quantifier": "all arguments, all input files (also damaged ones), all output files, all sequences of names", "why_tests_cant": "that nothing is lost has to hold for every file that is added and every place where reading it can raise", "anchors": ["freesif/sequentialparser/parsers.py:get_table", "freesif/sequentialparser/parsers.py:parse_file", "freesif/sequentialparser/sif2hdf5.py:sif2hdf5"]}
{"id": "C75", "title": "What a conversion that raises leaves behind", "statement": "If a file cannot be converted (C64), the output file holds, for every table but the one being written, the rows of the records before the one that raises, and of that table the rows that were written in full blocks; the tables of files read before are complete, and the types of the elements read are known to later conversions. The output file stays open: open_hdf5 on it raises ValueError if its full path was given to sif2hdf5. Otherwise it gives what is in it, or, if the group of the file that could not be converted was new, raises AttributeError and makes no File. From then on, whatever is called and however the files change, open_sif raises ValueError for every SESAM file whose in-memory name is that of the file left open (in memory or in the current directory).", "quantifier": "all files with a record that cannot be converted, at any place and level, all buffer sizes, all sessions afterwards", "why_tests_cant": "the state after an exception depends on where reading stops relative to the buffer and on the whole history of the session", "anchors": ["freesif/sequentialparser/parsers.py:general_parser", "freesif/sequentialparser/parsers.py:parse_file", "freesif/sequentialparser/parsers.py:gelmnt1_reader", "freesif/sequentialparser/sif2hdf5.py:sif2hdf5", "freesif/data/file.py:open_sif", "freesif/data/file.py:open_hdf5", "freesif/data/file.py:File.__init__"]}
{"id": "C76", "title": "Files that end too early", "statement": "The first lines of a formatted file that can be converted, up to the end of some record, are converted without an exception: the records get the rows they get from the whole file, and the end record is missing from the RECORDS attribute. The first bytes of an unformatted file that can be converted, up to the end of some record that gets a row or consists of its first line, raise struct.error; the tables of the records of other types are complete, and of the table of the last records the rows in full blocks are written.", "quantifier": "all files that can be converted, of any length, all places where they can end, all buffer sizes", "why_tests_cant": "a relation between the conversion of a file and of each of its beginnings; tests use complete files", "anchors": ["freesif/sequentialparser/parsers.py:parse_file", "freesif/sequentialparser/parsers.py:general_parser", "freesif/sequentialparser/sequentialfiles.py:FormattedFile.read_headerrec", "freesif/sequentialparser/sequentialfiles.py:UnformattedFile.read_headerrec"]}
{"id": "C77", "title": "Selections without the end record", "statement": "sif2hdf5 with only=l, where l lacks IEND but has IDENT, HIERARCH and the types the types in it refer to, converts a formatted file without an exception: the tables of the types in l are those of a full conversion, there are no others, and the attributes are the same except that RECORDS has only the types in l. The unformatted file with the same records raises struct.error, since the end record is passed over and a further record is read; by then the tables of the types in l are complete, but the group has no attributes.", "quantifier": "all files that can be converted and end with their end record, all such selections, all buffer sizes", "why_tests_cant": "relates three conversions of the same records for every selection; tests select from few files", "anchors": ["freesif/sequentialparser/parsers.py:parse_file", "freesif/sequentialparser/parsers.py:general_parser", "freesif/sequentialparser/sif2hdf5.py:sif2hdf5", "freesif/sequentialparser/sequentialfiles.py:SequentialFile.skip_restofrecord", "freesif/sequentialparser/sequentialfiles.py:UnformattedFile.read_headerrec"]}
{"id": "C78", "title": "The same arrays given to the writer again", "statement": "VtuWriter.new_piece puts the caller's connectivity array in VTK order in place, and add_data_cellpoints the caller's array of results. So, over any calls of any number of writers, the n-th piece that is written from the same connectivity array has the nodes of each element put in VTK order n times: right for three node beams exactly if n is odd, for eight node shells exactly if n is one more than a multiple of three, for other elements always. Results of six node triangles are right exactly if the number of times they were given to add_data_cellpoints after a piece was begun is one more than a multiple of four, calls that were refused with VtkError included. A new_piece that raises has put the array in order too. Offsets and types are never changed, and a call on one writer changes no other.", "quantifier": "all arrays, all sequences of calls of any number of writers, all outcomes of the calls", "why_tests_cant": "effects on shared arrays over any number of calls; a test that writes a file once sees the right order", "anchors": ["freesif/utils/writers.py:VtuWriter.new_piece", "freesif/utils/writers.py:VtuWriter.add_data_cellpoints", "freesif/utils/writers.py:_reorder_data", "freesif/utils/writers.py:_reorder_connectivity_vtk", "freesif/utils/writers.py:_reorder_cellpointdata_vtk"]}
{"id": "C79", "title": "Node results for each place of each element, without a selection", "statement": "get_noderesults with disconnected=True and neither sets nor kind gives for each result case, each element and each of its nodes, in the order of get_nodes(disconnected=True), the six values of the node whose number is one more than the number of nodes before that node which belong to elements. These are the values of the node itself exactly if every node with a smaller number belongs to an element (see C32 for the case that all do). Without elements ValueError is raised.", "quantifier": "all models (nodes, elements), all results that are complete and sorted, all choices of result cases", "why_tests_cant": "which node's values are given depends on the whole connectivity; wrong values look like right ones", "anchors": ["freesif/data/strucdata.py:FirstLevelData.get_noderesults", "freesif/data/strucdata.py:FirstLevelData._update_connectivity", "freesif/data/strucdata.py:FirstLevelData._get_nodeindices"]}
{"id": "C80", "title": "Writing into arrays of a hydrodynamic data object", "statement": "get_angular_freqs, get_periods, get_timesteps and get_directions('radians') give, every time, the same array: what the caller writes into it is given by later calls of that getter, and later get_directions('degrees') are computed from it; nothing else changes it. get_directions('degrees') gives a new array each time, changed only by writing into it. Sections, points, body properties, RAOs, matrices, drift forces and pressures are the same whatever was written, and periods do not follow frequencies.", "quantifier": "all data objects, all sequences of calls and writes", "why_tests_cant": "effects of writes on later calls, for every sequence of calls; tests read an array once", "anchors": ["freesif/data/hydrodata.py:HydroData.get_angular_freqs", "freesif/data/hydrodata.py:HydroData.get_periods", "freesif/data/hydrodata.py:HydroData.get_directions", "freesif/data/hydrodata.py:HydroData.get_timesteps"]}
{"id": "C81", "title": "What a File holds, whatever its groups are", "statement": "open_hdf5 on any file: a group whose attributes name a class is held under its name by an object of that class reading it; the key of a group whose attributes name none gives the very object of the latest group before it that has a class; superelements below either are objects of their own, linked to the object the key of their parent gives. Two keys give the same object exactly if they read the same group. If the first group names no class UnboundLocalError is raised; a hydrodynamic group that cannot be read raises its error; then nothing is held or registered and the HDF5 file stays open.", "quantifier": "all sessions, all lists of groups with any attributes and subgroups", "why_tests_cant": "all combinations of attributes and orders of groups; tests open files made by one conversion", "anchors": ["freesif/data/file.py:File.__init__", "freesif/data/file.py:open_hdf5"]}
{"id": "C82", "title": "Reading back what was converted to HDF5 files on disk", "statement": "A file of a first level superelement that sif2hdf5 converts into an HDF5 file that is not open, and which open_hdf5 then opens, gives under the name of its group an object with exactly what the file describes, whatever other calls are made in between that do not close this File. The object that open_sif returns for a file of any class and the object of its group after sif2hdf5 with usefileprefix (the default) and open_hdf5 give the same: same nodes, elements, results, or same errors. Two files converted one after the other into one HDF5 file, the second with append and another group name, both give objects with what their own file describes.", "quantifier": "all sessions, all files that can be converted and their encodings, all names and options, all calls in between", "why_tests_cant": "relates two ways through the whole library for every file and every history of a session", "anchors": ["freesif/sequentialparser/sif2hdf5.py:sif2hdf5", "freesif/data/file.py:open_hdf5", "freesif/data/file.py:open_sif", "freesif/data/file.py:File.__init__", "freesif/data/strucdata.py:FirstLevelData.__init__"]}
{"id": "C83", "title": "Results that are incomplete, in another order, or complex", "statement": "get_noderesults (disconnected=False) takes the numbers of the records of the wanted result cases and selected nodes in the order of the file, as real or complex values one after the other, and cuts them into rows of six and into as many arrays of equally many rows as there are wanted cases; it raises ValueError if there is no such record or if the numbers cannot be cut like that, and nothing else is checked: if results of nodes are missing or the cases are not one after the other, rows are given for other cases and nodes. Of complex results half the numbers are there (C20), so each row is made of two records that follow each other, three values of each, and an odd number of records raises ValueError. With disconnected=True it raises what it raises without, and otherwise takes for each node of each selected element the row whose number is the number of nodes before it that belong to the selected elements, IndexError if there is no such row (so for complex results). get_elementresults does the same with the rows obtained from the records of the selected elements, provided they have the same axes. This holds from the bytes of the file on.", "quantifier": "all models and selections, all records of node and element results whatever they hold and in any order, real and complex, all choices of result cases; all sessions", "why_tests_cant": "for every file with missing or unsorted results; arrays of the right shape with values of other nodes look right", "anchors": ["freesif/data/strucdata.py:FirstLevelData.get_noderesults", "freesif/data/strucdata.py:FirstLevelData.get_elementresults", "freesif/data/strucdata.py:FirstLevelData._get_resrefs"]}
{"id": "C84", "title": "Names of sets given as byte strings", "statement": "get_setnames returns byte strings, and these cannot be used as names of sets. When a byte string that is not empty is given as sets, alone or in a sequence, no getter with that argument returns anything, whatever the file holds and whatever the other arguments are; with node and element data and sets on the file the exception is NameError, or ConditionError if a str before the byte string in the sequence is no name of a set. The same name as a str selects the elements of the set (C29). An empty byte string is the same as no sets.", "quantifier": "all data objects, all models, all byte strings and sequences of names, all other arguments", "why_tests_cant": "for every name and every file; the tests pass names as str only", "anchors": ["freesif/data/strucdata.py:FirstLevelData.get_setnames", "freesif/data/strucdata.py:FirstLevelData._get_setmember_indices", "freesif/data/strucdata.py:FirstLevelData.get_elements", "freesif/data/strucdata.py:FirstLevelData.get_nodes"]}
{"id": "C85", "title": "Formatted files that end inside a record", "statement": "The first lines of a formatted file that can be converted, up to some line of a record of a type with a fixed number of fields (or with optional fields) that goes on behind that line, are converted without an exception: the records in front get the rows they get from the whole file, the record gets a row with the values that are there and zeros for the values that are missing.", "quantifier": "all formatted files that can be converted, of any length, all records of the types with a fixed number of fields or with optional fields, all lines where the file can end, all buffer sizes", "why_tests_cant": "a relation between the conversion of a file and of each of its beginnings; the result is a plausible row with wrong numbers", "anchors": ["freesif/sequentialparser/parsers.py:standard_record_reader", "freesif/sequentialparser/parsers.py:reader_optionalfields", "freesif/sequentialparser/sequentialfiles.py:FormattedFile.read_floats", "freesif/sequentialparser/sequentialfiles.py:FormattedFile.at_headerrec"]}
{"id": "C86", "title": "Unformatted files with zeros behind a record", "statement": "The first bytes of an unformatted file that can be converted, up to the end of some record (not one whose optional fields are looked for), followed by a zero byte and at least one further byte (as where the file is filled up with zeros), or by one byte of any value (the length byte of a record that is missing), are converted without an exception: the records in front get the rows they get from the whole file, and the end record is missing from the RECORDS attribute.", "quantifier": "all unformatted files that can be converted, of any length, all places between their records, all bytes behind the zero byte, all buffer sizes", "why_tests_cant": "a relation between the conversion of a file and of each of its beginnings with anything behind; a test has one file", "anchors": ["freesif/sequentialparser/sequentialfiles.py:UnformattedFile.read_stringrec", "freesif/sequentialparser/sequentialfiles.py:UnformattedFile.read_headerrec", "freesif/sequentialparser/parsers.py:parse_file"]}
{"id": "C87", "title": "Formatted files that end inside a line", "statement": "The first characters of a formatted file that can be converted, up to some character inside a line of a record of a type with a fixed number of fields (or with optional fields): if what is left of the line, without its last character, can be read as numbers that can be stored, the file is converted without an exception, the records in front get the rows they get from the whole file, and the record gets a row with the numbers that are there, the rest of the number in front of the end read as a number of its own, and zeros for the values that are missing.  If the rest of that number is no number, the exception of its conversion is raised.", "quantifier": "all formatted files that can be converted, of any length, all records of the types with a fixed number of fields or with optional fields, all characters of their lines where the file can end, all buffer sizes", "why_tests_cant": "a relation between the conversion of a file and of each of its beginnings; the result is a plausible row with wrong numbers (a modulus of 2.000E+09 becomes 2)", "anchors": ["freesif/sequentialparser/sequentialfiles.py:FormattedFile.read_stringrec", "freesif/sequentialparser/sequentialfiles.py:FormattedFile.read_floats", "freesif/sequentialparser/sequentialfiles.py:FormattedFile.tofloatrec", "freesif/sequentialparser/parsers.py:standard_record_reader"]}
