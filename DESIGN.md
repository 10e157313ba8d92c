# Formal model of freesif (agrav/freesif) in Lean 4

Source of truth: `/repo` (read as text, never run).  All Lean code is in
`lean/Verif/`; `lake build` in `lean/` checks everything.

## Trusted base

* Lean 4.33.0's kernel and elaborator, the Mathlib modules imported one by one.
* Axioms: every theorem listed in `MANIFEST.json` depends on at most
  `propext`, `Classical.choice`, `Quot.sound` (`#print axioms`).  No own axioms, no
  `sorry`/`admit`, no `native_decide`/`bv_decide`.
* The reading of the Python source: each Lean definition cites file and lines and
  says where it is simplified.

### Value domain

* Python floats read from files: `PyF` = exact rational, nan, +inf, -inf.  `struct` float32
  decoding is modelled bit by bit (`Seq.f32le`), `float(text)` for decimal numerals with rounding
  to doubles (`Seq.floatStd`); both are parameters of the readers (`Dec`), theorems hold for
  every decoder, C07 for decoders that refuse without hanging (`Dec.Fine`).  Numbers are rounded
  to single precision when they are stored in `Float32` and `Complex64` columns (`PyF.single`,
  specified by `Rounds` in `Verif/Single.lean`).  The sign of zero is not modelled.
* Python `int` = `Int`.  int32 overflow in table columns is not modelled.
* Text is ASCII: file contents printable ASCII, file names ASCII.
* Python exceptions are values: `Except Err a`, `Err` (in `Verif/Py.lean`) has one constructor
  per exception class that the code or the libraries it calls can raise there.
* Calculations are exact: `calc/` over the real numbers; the extrapolation matrices over
  any field with an element `s3`, `s3 * s3 = 3`; complex values are pairs `K × K`; the
  getters of structural and hydrodynamic data over any field.  `pi` is a parameter.
  Theorems are about exact arithmetic, not about floating point rounding.
* HDF5 (PyTables): a group tree with tables (rows of cells), arrays and attributes, kept in
  memory; creating an existing node raises.  Disk, compression and PyTables query
  strings are not modelled (a query is a Boolean predicate on rows), except that the text of the
  query for a set that is named by a byte string is refused (C84).
* Names of sets and result cases are byte strings when they are returned and `str` in arguments; both
  are lists of characters here, and only in the argument `sets` are they told apart (C84).
* Open HDF5 files: PyTables keeps a registry of open files by name as given (`sif2hdf5` gives the
  name of the argument, `open_hdf5` the full path).  A name that is open for reading cannot be
  opened for writing or the reverse, an open name cannot be created anew, and HDF5 refuses to
  create a file that is open under another name or to write to one that is open for reading
  (`Conv.openOutput`).  A conversion that raises leaves its output open (`OutFile.left`), with what
  was written up to then.  What is appended later to such a file is not seen by objects that
  `open_hdf5` has made of it.  The constructor of `File` reads the attributes DATATYPE and LEVEL;
  the others are set by `sif2hdf5` together with these.
* Between the calls of a session the current directory and the input files may change; HDF5 files
  are changed by the calls only.
* Paths: no symbolic links, no `.` or `..` components.
* numpy: arrays are nested lists, or shape and index function (`Data.Nd`); `reshape`,
  `rollaxis`, `transpose`, `take`, `unique`, `concatenate`, slices and negative indices are
  modelled by their documented index arithmetic (`Data.Np`, `Data.Nd`).
* The data objects (`Data.Struc`, `Data.Hydro`) read typed rows: a table is a list of
  structures with the columns the code uses.  Group names in one HDF5 group are distinct and
  the attributes that the converter writes are present (`Data.Life`).

`COVERAGE.md` lists every function of the code with the definitions that model it.

### Not modelled

* `utils/vtfdata.py` beyond the constructor of `VtfData`: no object of that class can be created
  (C61), so none of its methods can run.
* `_record_info`, logging, progress output.
* the getters that have no body (`get_concepts`, `get_conceptresults`, `get_conceptnames`,
  `get_properties`, `get_resultcase_info`, `get_result_component_names`,
  `HigherLevelData.get_nodes`).
* a list as `prefix` of a single file without use of the file prefix: reading is taken to raise
  `TypeError` for the first group name; exceptions that reading raises before are not modelled.
* the eigenvalue solver of `principal_thickshell` is a parameter returning the eigenvalues in any
  order; base64 of the standard library is re-implemented.

## Layers and modules

Each layer has model files, a separate specification, lemmas, the theorems (`Props` files) and cases
that meet the hypotheses (`Demo` files or `example`s beside the theorems).

1. **Physical records** (`sequentialfiles.py`): `Seq/Base`, `Ops`, `Files`.  Unformatted files as
   byte lists, formatted files as character lists, functions `read_stringrec`,
   `read_headerrec`, `read_floats`, `at_headerrec`, `skip_restofrecord` branch by branch.
   Theorems in `Seq/Props`, `Writer`, `Bounded`, `Floats` (meaning of bit patterns and numerals).
2. **Logical files**: `Seq/Logical`, `SimU`, `SimT`, `SameView`.  An abstract reader over a list of
   logical records (name, header floats, continuation segments).  A simulation theorem for
   each physical file kind says: whatever succeeds on the logical file succeeds with the same
   result on every physical encoding of it (any chunking, padding, line filling).
3. **Record parsers** (`parsers.py`): `Parse/Store`, `Descr`, `Readers`, `Parser`.  Written once,
   generic in the reader operations; module globals are an explicit state; record loops take
   fuel and the termination theorem (`Parse/Terminates`) shows that fuel greater than the file
   size is never exhausted.  The record dictionary is finite (`Descr`: names, fields, order),
   statements about all records of a kind are checked per name and lifted.  `Parse/Spec` says
   what a record means, `FileSpec` what a file means, `TraceSpec` which blocks of records are read,
   `RefuseSpec` which files cannot be converted.
4. **Conversion driver** (`sif2hdf5.py`, `helpers.parse_sifname`): `Conv/Names` (regular
   expression semantics with ordered choice and backtracking), `Driver` (argument validation,
   lower level files).
5. **Data API** (`data/*.py`): `Data/Struc` (selections, node results, hierarchy), `Elem` (element
   results), `Hydro` (hydrodynamic arrays), `Life` (opening, look-up and closing).
   `Load` reads the tables of a converted group into these objects; `LoadSpec` says which model and
   results the records of a file describe; `LoadProps`, `LoadResults` compose parser, storage and
   getters into statements about the bytes of a file; `LoadHydro*` does the same for hydrodynamic
   results.
6. **Sessions** (`data/file.py`: `open_sif`, `open_hdf5`, with everything above): `Session/Model` joins
   conversion, objects and tables in one state; `Reachable` are the states that any sequence of calls
   leads to.  `Session/Reads`, `Closing` and `Whole` have the theorems.  Simplified: attributes of all groups
   are read before the first data object is made; an HDF5 file may be opened for reading more than
   once; names of in-memory files do not clash with names of files on disk.
7. **Writers** (`utils/writers.py`): `Vtu`; **calculations** (`calc/*.py`): `Calc`.
   `Export` joins getters and writer as in `examples/struc_example.py`; the bytes of a number are a
   parameter (`Enc`), arrays of integers are little endian and not negative.

## Properties and how they are proved

| id | modelled | proof |
|----|----------|-------|
| C01 | UnformattedFile reader on bytes | stream invariant: leftover ++ decoded remaining records; induction over requests |
| C02 | framing of read_stringrec | induction over payload list, explicit error at end |
| C03 | FormattedFile reader on characters | stream invariant with 4-per-line hypothesis |
| C04 | both readers, arbitrary leftover state | header read is independent of leftover fields |
| C05 | skip_restofrecord both kinds | case per layout, induction over continuation records |
| C06 | table of allowed names vs readers | false of the code: refuted with the missing names; `_partial` for the names present |
| C07 | all record loops with fuel | size measure, fuel > size never exhausted |
| C08 | recdata | invariant over add/flush sequence; with a selection, the rows of a type are exactly the selected records of the file, in its order (`selectedEvents`) |
| C09 | vldata + recdata | invariant: written array ++ pending data; slices stable under append |
| C10 | standard_record_reader | induction over block at logical level + simulation |
| C11 | reader_optionalfields, at_headerrec | both kinds separately; the end of a formatted file counts as no header, and the missing values become zeros |
| C12 | parse on logical file | corollary of the two simulations |
| C13 | parse_file with only | commutation of filter with parse for self-contained record types; one row per selected record for any file |
| C14 | record_names, dedup | induction |
| C15 | attribute logic of parse_file | case analysis against a decision table |
| C16 | reset, elem_data | refuted in general (stale element types), `_partial`: equal results whenever elem_data is equal |
| C17 | gelmnt1_reader | induction over block |
| C18 | gelref1_reader | 16 cases uniformly by a fold over four flags |
| C19 | rvelmres + declarations | map invariants |
| C20 | rvnodres | refuted for complex cases, `_partial` for real |
| C21 | wdresref | refuted (stale slices), `_partial` for records with all types present |
| C22 | name pattern matcher | soundness/completeness of ordered-choice matcher for built names |
| C23 | lower level candidates | list specification |
| C24 | sif2hdf5 argument logic | effect trace model |
| C25 | File/SifData life cycle | invariant over operation histories |
| C26 | close_all_files | refuted (set changed during iteration), `_partial`: repeated calls |
| C27-C31 | selection functions | order isomorphism of sorted-unique relabelling, index algebra |
| C32 | get_noderesults | sortedness => reshape alignment |
| C33 | get_transformation | induction on level distance; divergence theorem for malformed chains |
| C34 | constructor wiring | refuted (toplevel reference never set), `_partial`: matrix argument |
| C35-C37 | HydroData | index arithmetic, first appearance order |
| C38-C41 | calc | real algebra |
| C42 | find_elemres_indices | argmin over ascending positions |
| C43, C44 | matrices | matrix algebra over reals |
| C45 | VtuWriter | invariant over call histories: stack and flags; what is accepted after any history stated by the document alone (Vtu/Histories) |
| C46 | _reorder_data | induction over offsets |
| C47 | base64 payload | round trip induction on triples |
| C48 | write_record | refuted: every call raises AttributeError |
| C49 | get_recordcount | logical level induction; unformatted files with and without zeros behind the last record |
| C50, C51 | element results, sections | per-type row counts, dictionary lookups |
| C52 | get_pressure_panel_ids, get_panel_pressures | index arithmetic; counterexample for other panel orders |
| C53 | getters of sections, points, bodies | list specification |
| C54 | File constructor and dict interface | induction over groups and subgroups; refuted for unknown data types |
| C55 | constructors and record access on converted groups | contents theorem of C08/C09 per record type, cell by cell |
| C56, C58 | the same with selections and results | composition of C55 with C27, C28, C32, C50, C51 |
| C59 | HydroData on converted groups | `LoadHydroRows`: rows per record type as in C55; composed with C35-C37, C52, C53 |
| C60 | formatted files without newline at the end | bisimulation of runs that differ in the last character |
| C61 | constructor of VtfData | evaluation with arbitrary class attributes; refuted, `_partial` for derived classes with the missing attribute |
| C62 | `open_sif`, `open_hdf5`, `File.__init__` on the tables written by `sif2hdf5`, in sessions of any length | composition of the theorems on conversion (C13-C24), objects (C54) and tables (C55, C59); invariant of sessions |
| C63 | sessions: names of in-memory files, closing, open output files | invariant by induction over the calls (one handle per open name), monotonicity of object states |
| C64 | files with a record that cannot be converted (`Wrong`, `Refuses`; also if there is no integer where the reader needs one: `FirstInt`, `SecondInt`, `MoreInt`, `MoreInt2`, `NoInt`; or if reading stops before a table is looked for: `Stuck`) or whose row cannot be stored (`Misfit`; `BadRow` for the first row of a hierarchy), without superelement type (`Untyped`), that stop before any table (`Halts`) or at an identification or hierarchy that cannot be stored (`BadIdent`), at both levels of a hierarchy, with the messages printed before | induction over the file along the proof of acceptance; a run that raises on the logical file raises on both file kinds |
| C65 | line ends (`Text`, `SameFiles`), paths and outputs in use, in `Conv/Driver.lean` | induction over the text; two runs of `sif2hdf5` compared step by step |
| C66 | selections without elements or nodes | case analysis of the model, with the element positions of a selection |
| C67 | void records are skipped or stored, depending on the record before | induction over the records before it: the accepted file with and without the record adds the same rows; membership in the events of the file |
| C68 | descriptions of files and objects | the items of a File correspond to the groups (`HoldsFile`); insertion sort gives the increasing list; induction over the items; closing by the invariant of sessions |
| C69 | `Float32` columns, `struct` and `float` | rounding function against a specification by nearest numbers, for any format; bit patterns and numerals by their grammar |
| C70 | sessions: `open_sif`, then any calls, then getters | composition of C62, C63 with the theorems on getters; induction over the calls that do not close the File |
| C71 | arrays of the getters handed to the VTU writer; sessions from files on disk to the VTU text | composition of C45, C46 with the theorems on getters and C70; refusals: invariant of the writer over any number of close() |
| C72 | start and stop columns for arrays without items | events flagged with "goes on with the block"; induction over the additions to a table; strong induction over rows for WDRESREF |
| C73 | reset, elem_data, sif2hdf5 | congruence over every branch of sif2hdf5; invariant of the record loop carried to the end of the file |
| C74 | get_table, parse_file, sif2hdf5 | relation "contains" between HDF5 files, kept by every step of the record loop, for any input |
| C75 | general_parser, parse_file, sif2hdf5, File.__init__, sessions | inductive description of files with a wrong record (C64); invariant of the record loop with the rows in the buffer; names left open as an invariant of sessions |
| C76 | read_next_header at the end of a file (`endMark` is what a formatted file gives there, `EncodedTo` adds unformatted files that end) | induction over the records along acceptance: the beginning of an accepted file, with `endMark` behind it, is accepted, or refused; the beginning of an encoded file is encoded |
| C77 | parse_file with only, read_next_header and skip_restofrecord at the end of a file | filtering an acceptance of the file gives an acceptance of the file with `endMark` behind it; applied to unformatted files this is refused behind the last record |
| C78 | the caller's arrays as a heap shared by the calls of any number of writers (Vtu/Shared) | induction over the calls: contents are the n-th iterate of the VTK order; iterates computed by induction (periods 2, 3, 4) |
| C79 | get_noderesults with disconnected, without a selection | the array read for all nodes (`results_read`), then the relabelled places: position of a node among the used ones |
| C80 | getters of hydrodata.py:121-149 with the array they return (Data/HydroOwn): attribute of the object or new | induction over calls and writes; the other fields of the object are untouched |
| C81 | File.__init__ (Data/Life), groups with any attributes | listing of keys with the group each reads; induction over the groups, trichotomy of outcomes |
| C82 | sif2hdf5, open_hdf5, open_sif in a session (Session/Disk) | the tables after conversion (C62), opening (C54, C63), stability of objects (C70); equality of what the objects give |
| C83 | get_noderesults, get_elementresults for any records (Data/AnyRes, Data/AnyDisc, Session/AnyRes) | records kept in the order of the file, numbers as values, cutting into equal arrays as a relation; error exactly if there is no cut; examples of shifted rows |
| C84 | byte strings in `sets` (Data/BytesProps) | further forms of the argument `sets`; error of every getter by cases on its steps; NameError exactly from the loop over the names |
| C85 | read_floats, at_headerrec of a formatted file at its end (`L.reader` before `endMark`); `Means.fixedCut`, `Means.optCut` | acceptance of the file split at the record; the record cut to its first lines is accepted before `endMark` with zeros filled in; the lines encode it |
| C86 | read_stringrec and read_headerrec at a length 0 and at a length byte without anything behind (`stopMark`, `U.Encodes.empty`, `U.Encodes.cut`) | `stopMark` ends the reading as `endMark` does (`Accepts.eof`), the simulation covers the empty payload; the beginning of an accepted file, with `stopMark` behind it, is accepted and encoded |
| C87 | as C85 and C60 | the last character of the file is lost (C60); acceptance split at the record; the record with the values of the rest of its line is accepted before `endMark`, and the lines up to there encode it; for the exception: a decoder that also reads the rest of the number gives results that depend on it, so the rest is read (`T.run_or`: the same result or the exception) |
| C57 | get_setnames, get_resultcase_names | dict as a fold, last row per key |

## Wrong programs

`seeded/LOG.jsonl` lists edits of the model that imitate realistic bugs, the claim each breaks and
the theorems that stop proving.
