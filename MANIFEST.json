{
 "claims": [
  {
   "property": "C01",
   "status": "proved",
   "theorems": [
    "Verif.Seq.U.read_floats_in_order",
    "Verif.Seq.U.chunking_irrelevant",
    "Verif.Seq.U.read_floats_exhausted"
   ],
   "note": "for every float decoder"
  },
  {
   "property": "C02",
   "status": "proved",
   "theorems": [
    "Verif.Seq.U.framing_roundtrip",
    "Verif.Seq.U.framing_end",
    "Verif.Seq.U.framing_exists",
    "Verif.Seq.U.framing_truncated"
   ],
   "note": "a record cut off by the end of the file is returned as far as it goes (framing_truncated)"
  },
  {
   "property": "C03",
   "status": "proved",
   "theorems": [
    "Verif.Seq.T.read_floats_in_order",
    "Verif.Seq.T.read_floats_lines"
   ],
   "note": ""
  },
  {
   "property": "C04",
   "status": "proved",
   "theorems": [
    "Verif.Seq.U.header_discards_leftover",
    "Verif.Seq.T.header_discards_leftover",
    "Verif.Seq.U.header_then_floats",
    "Verif.Seq.T.header_then_floats"
   ],
   "note": ""
  },
  {
   "property": "C05",
   "status": "proved",
   "theorems": [
    "Verif.Seq.U.skip_lands_on_next",
    "Verif.Seq.T.skip_lands_on_next",
    "Verif.Seq.U.skip_position",
    "Verif.Seq.T.skip_position"
   ],
   "note": "layouts: Skippable; on formatted files the counted layout is blank-led"
  },
  {
   "property": "C06",
   "status": "partial",
   "theorems": [
    "Verif.Parse.readable_recognised_partial",
    "Verif.Parse.readable_iff",
    "Verif.Parse.readable_swallowed",
    "Verif.Parse.kinds_recognise"
   ],
   "note": "the claim is false of the code: W1MOTION, W1SFORCE, W2MDRIFT, TDLOAD and WINPUT are not recognised (readable_swallowed); proved that these are the only ones"
  },
  {
   "property": "C07",
   "status": "proved",
   "theorems": [
    "Verif.Parse.parse_terminates",
    "Verif.Parse.parse_limit_irrelevant",
    "Verif.Parse.recordcount_terminates"
   ],
   "note": "for any content and state; float(text) is a parameter"
  },
  {
   "property": "C08",
   "status": "proved",
   "theorems": [
    "Verif.Parse.one_row_per_record",
    "Verif.Parse.no_record_no_table",
    "Verif.Parse.one_row_per_selected_record",
    "Verif.Parse.buffer_size_irrelevant"
   ],
   "note": ""
  },
  {
   "property": "C09",
   "status": "proved",
   "theorems": [
    "Verif.Parse.slices_are_own",
    "Verif.Parse.references_read",
    "Verif.Parse.references_stored"
   ],
   "note": "references_*: WDRESREF records that give a reference type more than once"
  },
  {
   "property": "C10",
   "status": "proved",
   "theorems": [
    "Verif.Parse.fixed_layout_rows"
   ],
   "note": ""
  },
  {
   "property": "C11",
   "status": "proved",
   "theorems": [
    "Verif.Parse.optional_fields"
   ],
   "note": ""
  },
  {
   "property": "C12",
   "status": "proved",
   "theorems": [
    "Verif.Parse.same_records_same_result"
   ],
   "note": ""
  },
  {
   "property": "C13",
   "status": "proved",
   "theorems": [
    "Verif.Parse.only_selects",
    "Verif.Parse.one_row_per_selected_record"
   ],
   "note": "only_selects: for selections that contain with each type the types it refers to, and IDENT, HIERARCH, IEND; one_row_per_selected_record: the rows for any selection that can be converted"
  },
  {
   "property": "C14",
   "status": "proved",
   "theorems": [
    "Verif.Parse.records_attribute"
   ],
   "note": ""
  },
  {
   "property": "C15",
   "status": "proved",
   "theorems": [
    "Verif.Parse.classification",
    "Verif.Parse.classified_function",
    "Verif.Parse.classified_total"
   ],
   "note": ""
  },
  {
   "property": "C16",
   "status": "partial",
   "theorems": [
    "Verif.Parse.history_irrelevant_partial",
    "Verif.Parse.elements_leak"
   ],
   "note": "the claim is false of the code: element types of earlier files are kept (elements_leak); proved for every file that only refers to elements it defines"
  },
  {
   "property": "C17",
   "status": "proved",
   "theorems": [
    "Verif.Parse.connectivity",
    "Verif.Parse.unsupported_type_raises"
   ],
   "note": ""
  },
  {
   "property": "C18",
   "status": "proved",
   "theorems": [
    "Verif.Parse.node_references"
   ],
   "note": ""
  },
  {
   "property": "C19",
   "status": "proved",
   "theorems": [
    "Verif.Parse.element_results",
    "Verif.Parse.missing_declaration_raises"
   ],
   "note": ""
  },
  {
   "property": "C20",
   "status": "partial",
   "theorems": [
    "Verif.Parse.node_results_partial",
    "Verif.Parse.complex_node_results_cut"
   ],
   "note": "the claim is false of the code for complex result cases: half of the values are stored (complex_node_results_cut); proved for real result cases"
  },
  {
   "property": "C21",
   "status": "partial",
   "theorems": [
    "Verif.Parse.wave_references_partial",
    "Verif.Parse.stale_wave_references"
   ],
   "note": "the claim is false of the code: a type not on the record selects the pairs of an earlier record (stale_wave_references); proved for the types on the record"
  },
  {
   "property": "C22",
   "status": "proved",
   "theorems": [
    "Verif.Conv.sifname_parts",
    "Verif.Conv.sifname_raises",
    "Verif.Conv.names_agree",
    "Verif.Conv.sifMatch_iff"
   ],
   "note": "ASCII names; sifMatch_iff characterises the match of every name"
  },
  {
   "property": "C23",
   "status": "proved",
   "theorems": [
    "Verif.Conv.hierarchy_converted",
    "Verif.Conv.hierarchy_in_memory"
   ],
   "note": "results files are recognised by the upper case extensions SIF and SIU only"
  },
  {
   "property": "C24",
   "status": "proved",
   "theorems": [
    "Verif.Conv.append_needs_name",
    "Verif.Conv.sequence_in_memory",
    "Verif.Conv.bad_argument",
    "Verif.Conv.bad_name",
    "Verif.Conv.missing_file",
    "Verif.Conv.sequence_one_file",
    "Verif.Conv.sequence_own_files",
    "Verif.Conv.listed_prefix",
    "Verif.Conv.listed_prefix_late",
    "Verif.Conv.listed_prefix_memory",
    "Verif.Conv.listed_prefix_taken",
    "Verif.Conv.only_output_written"
   ],
   "note": "if prefix is a list shorter than the sequence, the remaining files are dropped; a list as prefix without use of the file prefix raises only after the output is opened, so an existing output is lost"
  },
  {
   "property": "C25",
   "status": "proved",
   "theorems": [
    "Verif.Data.Life.closed_forever",
    "Verif.Data.Life.close_via_data",
    "Verif.Data.Life.closed_getters",
    "Verif.Data.Life.closed_struc",
    "Verif.Data.Life.closed_top",
    "Verif.Data.Hydro.closed_hydro",
    "Verif.Data.Life.others_unaffected",
    "Verif.Data.Life.open_file",
    "Verif.Data.Life.close_idempotent",
    "Verif.Data.Life.close_data_idempotent"
   ],
   "note": ""
  },
  {
   "property": "C26",
   "status": "partial",
   "theorems": [
    "Verif.Data.Life.close_all_partial",
    "Verif.Data.Life.close_all_raises",
    "Verif.Data.Life.close_all_none",
    "Verif.Data.Life.Demo.close_all_not"
   ],
   "note": "the claim is false of the code: whenever a file is open one file is closed and RuntimeError raised (close_all_raises, close_all_not); proved: calling it once per open file closes all (close_all_partial)"
  },
  {
   "property": "C27",
   "status": "proved",
   "theorems": [
    "Verif.Data.connectivity_fits"
   ],
   "note": "for meshes whose elements have nodes of the mesh; a selection that matches no element raises ValueError (empty_selection)"
  },
  {
   "property": "C28",
   "status": "proved",
   "theorems": [
    "Verif.Data.offsets_delimit"
   ],
   "note": ""
  },
  {
   "property": "C29",
   "status": "proved",
   "theorems": [
    "Verif.Data.sets_union",
    "Verif.Data.unknown_set",
    "Verif.Data.no_record_of_elements",
    "Verif.Data.names_order_irrelevant"
   ],
   "note": ""
  },
  {
   "property": "C30",
   "status": "proved",
   "theorems": [
    "Verif.Data.kinds_partition",
    "Verif.Data.kind_and_sets",
    "Verif.Data.other_kind"
   ],
   "note": ""
  },
  {
   "property": "C31",
   "status": "proved",
   "theorems": [
    "Verif.Data.numbers_line_up"
   ],
   "note": ""
  },
  {
   "property": "C32",
   "status": "partial",
   "theorems": [
    "Verif.Data.node_results_line_up_partial",
    "Verif.Data.Demo.unused_nodes_misalign",
    "Verif.Data.rescases_order_irrelevant",
    "Verif.Data.mixed_results",
    "Verif.Data.no_such_case",
    "Verif.Data.no_such_type"
   ],
   "note": "the claim is false of the code for disconnected=True without a selection when some node belongs to no element (unused_nodes_misalign); proved for all other calls"
  },
  {
   "property": "C33",
   "status": "proved",
   "theorems": [
    "Verif.Data.transformation_is_product",
    "Verif.Data.level_out_of_range",
    "Verif.Data.level_not_on_path",
    "Verif.Data.reaches_or_skips",
    "Verif.Data.up_unique",
    "Verif.Data.transformation_terminates",
    "Verif.Data.unknown_superelement"
   ],
   "note": "for superelements below the requested level; transformation_diverges: without a parent below the level the loop never ends"
  },
  {
   "property": "C34",
   "status": "partial",
   "theorems": [
    "Verif.Data.nodes_on_level_partial",
    "Verif.Data.level_unavailable",
    "Verif.Data.nodes_transformed",
    "Verif.Data.trans_meaning",
    "Verif.Data.trans_refused"
   ],
   "note": "the claim is false of the code: the reference to the top level object is never set, so trans=level raises HierarchyError (level_unavailable); proved for objects that had the reference, for matrices and for RSUPTRAN"
  },
  {
   "property": "C35",
   "status": "proved",
   "theorems": [
    "Verif.Data.Hydro.opens",
    "Verif.Data.Hydro.angular_freqs",
    "Verif.Data.Hydro.periods",
    "Verif.Data.Hydro.directions",
    "Verif.Data.Hydro.timesteps",
    "Verif.Data.Hydro.grid_axes"
   ],
   "note": ""
  },
  {
   "property": "C36",
   "status": "proved",
   "theorems": [
    "Verif.Data.Hydro.motion_raos",
    "Verif.Data.Hydro.excitation_raos",
    "Verif.Data.Hydro.meandrift",
    "Verif.Data.Hydro.horiz_meandrift",
    "Verif.Data.Hydro.section_raos",
    "Verif.Data.Hydro.pressure_raos",
    "Verif.Data.Hydro.elevation_raos",
    "Verif.Data.Hydro.velocity_raos",
    "Verif.Data.Hydro.kinematics_kind",
    "Verif.Data.Hydro.wrong_count",
    "Verif.Data.Hydro.section_wrong_count",
    "Verif.Data.Hydro.kinematics_wrong_count",
    "Verif.Data.Hydro.no_record",
    "Verif.Data.Hydro.unknown_body",
    "Verif.Data.Hydro.time_domain"
   ],
   "note": "sections of all bodies are counted together, so section forces of files with two bodies with sections raise"
  },
  {
   "property": "C37",
   "status": "proved",
   "theorems": [
    "Verif.Data.Hydro.first_matrix",
    "Verif.Data.Hydro.all_matrices",
    "Verif.Data.Hydro.matrix_type_error",
    "Verif.Data.Hydro.matrix_none",
    "Verif.Data.Hydro.matrix_unknown_body",
    "Verif.Data.Hydro.matrix_no_record"
   ],
   "note": ""
  },
  {
   "property": "C38",
   "status": "proved",
   "theorems": [
    "Verif.Calc.principal2d_eigenvalues",
    "Verif.Calc.principal2d_pointwise"
   ],
   "note": "exact real arithmetic"
  },
  {
   "property": "C39",
   "status": "proved",
   "theorems": [
    "Verif.Calc.vonmises2d_principal",
    "Verif.Calc.vonmises2d_zero_iff",
    "Verif.Calc.vonmises2d_scale",
    "Verif.Calc.vonmises2d_shear_sign",
    "Verif.Calc.vonmises2d_pointwise",
    "Verif.Calc.vonmises2d_short",
    "Verif.Calc.thickshell_raises"
   ],
   "note": "exact real arithmetic; vonmises_thickshell always raises NotImplementedError"
  },
  {
   "property": "C40",
   "status": "proved",
   "theorems": [
    "Verif.Calc.principalThick_general",
    "Verif.Calc.principalThick_no_shear",
    "Verif.Calc.principalThick_pointwise",
    "Verif.Calc.principalThick_short",
    "Verif.Calc.principalThick_tie_order"
   ],
   "note": "the eigenvalue solver is a parameter that returns the eigenvalues in any order; principalThick_tie_order shows the one remaining dependence on that order"
  },
  {
   "property": "C41",
   "status": "proved",
   "theorems": [
    "Verif.Calc.absmax_spec",
    "Verif.Calc.absmaxRows_spec"
   ],
   "note": ""
  },
  {
   "property": "C42",
   "status": "proved",
   "theorems": [
    "Verif.Calc.findOne_spec",
    "Verif.Calc.findOne_in_element",
    "Verif.Calc.findOne_element_error",
    "Verif.Calc.findElemresIndices_pairwise",
    "Verif.Calc.findOne_wrong_element"
   ],
   "note": ""
  },
  {
   "property": "C43",
   "status": "proved",
   "theorems": [
    "Verif.Data.quad_stress_exact",
    "Verif.Data.tri_stress_exact",
    "Verif.Data.beam_force_exact",
    "Verif.Data.quad_decomposed_exact",
    "Verif.Data.tri_decomposed_exact"
   ],
   "note": "exact arithmetic over any field with a square root of 3, real or complex values"
  },
  {
   "property": "C44",
   "status": "proved",
   "theorems": [
    "Verif.Data.decomposition_recombines",
    "Verif.Data.quad_decomposed_exact",
    "Verif.Data.tri_decomposed_exact"
   ],
   "note": ""
  },
  {
   "property": "C45",
   "status": "proved",
   "theorems": [
    "Verif.Vtu.vtu_document",
    "Verif.Vtu.vtu_legal",
    "Verif.Vtu.legal_after_history",
    "Verif.Vtu.refused_no_effect",
    "Verif.Vtu.closed_forever",
    "Verif.Vtu.close_retry_unbalanced",
    "Verif.Vtu.unsupported_type_blocks_close"
   ],
   "note": "attribute values are not escaped by the code; the document is a tree of elements whose attribute values are the given names verbatim"
  },
  {
   "property": "C46",
   "status": "proved",
   "theorems": [
    "Verif.Vtu.reorder_connectivity",
    "Verif.Vtu.reorder_results",
    "Verif.Vtu.reorder_wrong_length",
    "Verif.Vtu.reorder_twice_wrong"
   ],
   "note": ""
  },
  {
   "property": "C47",
   "status": "proved",
   "theorems": [
    "Verif.Vtu.b64_roundtrip",
    "Verif.Vtu.b64encode_length",
    "Verif.Vtu.addData_payload"
   ],
   "note": ""
  },
  {
   "property": "C48",
   "status": "partial",
   "theorems": [
    "Verif.Seq.W.write_record_raises",
    "Verif.Seq.W.write_floats_raises",
    "Verif.Seq.W.write_floats_places",
    "Verif.Seq.W.write_string_roundtrip_partial"
   ],
   "note": "the claim is false of the code: write_record always raises AttributeError (self.write does not exist); proved for text lines only"
  },
  {
   "property": "C49",
   "status": "partial",
   "theorems": [
    "Verif.Seq.T.recordcount_partial",
    "Verif.Seq.U.recordcount_raises",
    "Verif.Seq.U.recordcount_padded"
   ],
   "note": "true for formatted files and for unformatted files padded with zeros; on unformatted files that end with their last record the code raises struct.error, so the claim is false there"
  },
  {
   "property": "C50",
   "status": "partial",
   "theorems": [
    "Verif.Data.element_results_real_partial",
    "Verif.Data.element_results_complex_partial",
    "Verif.Data.processElem_nodes",
    "Verif.Data.thin_quad_points",
    "Verif.Data.thin_tri_points",
    "Verif.Data.beam_points",
    "Verif.Data.element_results_fail",
    "Verif.Data.element_results_error",
    "Verif.Data.element_results_fail_complex",
    "Verif.Data.element_results_error_complex",
    "Verif.Data.Demo.mixed_shells",
    "Verif.Session.session_element_refused",
    "Verif.Session.session_element_refused_complex"
   ],
   "note": "the claim is false of the code if first and second order shells are selected together: ValueError (mixed_shells); proved for selections whose results have the same axes"
  },
  {
   "property": "C51",
   "status": "proved",
   "theorems": [
    "Verif.Data.sections_found",
    "Verif.Data.thicknesses_found",
    "Verif.Data.section_missing",
    "Verif.Data.thickness_missing"
   ],
   "note": "of several property records with the same geometry number the last one is used"
  },
  {
   "property": "C52",
   "status": "proved",
   "theorems": [
    "Verif.Data.Hydro.panel_pressures",
    "Verif.Data.Hydro.panel_ids",
    "Verif.Data.Hydro.ids_match_pressures",
    "Verif.Data.Hydro.no_panels",
    "Verif.Data.Hydro.Demo.reversed_panels"
   ],
   "note": "reversed_panels: without increasing order ids and pressures disagree"
  },
  {
   "property": "C53",
   "status": "proved",
   "theorems": [
    "Verif.Data.Hydro.sections_points",
    "Verif.Data.Hydro.body_properties",
    "Verif.Data.Hydro.body_properties_missing"
   ],
   "note": ""
  },
  {
   "property": "C54",
   "status": "partial",
   "theorems": [
    "Verif.Data.Life.open_holds_partial",
    "Verif.Data.Life.lookups",
    "Verif.Data.Life.open_lookup",
    "Verif.Data.Life.open_sif_holds",
    "Verif.Data.Life.open_sif_key_error",
    "Verif.Data.Life.iterate_fails",
    "Verif.Data.Life.open_unbound",
    "Verif.Data.Life.open_alias",
    "Verif.Data.Life.open_hydro_fails",
    "Verif.Data.Life.Demo.alias_not"
   ],
   "note": "the claim is false of the code for a group of unknown data type: its key gives the object of the group before it (open_alias, alias_not), or opening raises (open_unbound); proved if the attributes of every group name a class"
  },
  {
   "property": "C55",
   "status": "proved",
   "theorems": [
    "Verif.Data.Load.file_to_object",
    "Verif.Data.Load.file_to_hierarchy"
   ],
   "note": "for files of one superelement; tables are read all at once"
  },
  {
   "property": "C56",
   "status": "proved",
   "theorems": [
    "Verif.Data.Load.file_to_mesh"
   ],
   "note": "for files of one superelement"
  },
  {
   "property": "C57",
   "status": "proved",
   "theorems": [
    "Verif.Data.set_names",
    "Verif.Data.resultcase_names",
    "Verif.Data.Load.file_to_names"
   ],
   "note": "of several names of a load case the last one is used"
  },
  {
   "property": "C58",
   "status": "proved",
   "theorems": [
    "Verif.Data.Load.file_to_node_results",
    "Verif.Data.Load.file_to_element_results",
    "Verif.Data.Load.file_to_sections"
   ],
   "note": "for files of one superelement"
  },
  {
   "property": "C59",
   "status": "proved",
   "theorems": [
    "Verif.Data.Load.file_to_hydro",
    "Verif.Data.Load.file_to_axes",
    "Verif.Data.Load.file_to_raos",
    "Verif.Data.Load.file_to_section_forces",
    "Verif.Data.Load.file_to_kinematics",
    "Verif.Data.Load.file_to_pressures",
    "Verif.Data.Load.file_to_matrix",
    "Verif.Data.Load.file_to_body"
   ],
   "note": "for files of one superelement; sections of all bodies are counted together"
  },
  {
   "property": "C60",
   "status": "proved",
   "theorems": [
    "Verif.Seq.T.newline_missing",
    "Verif.Seq.T.newline_value",
    "Verif.Seq.T.newline_name",
    "Verif.Parse.convert_newline_missing"
   ],
   "note": "newline_value, newline_name: the lost character changes what is read"
  },
  {
   "property": "C61",
   "status": "partial",
   "theorems": [
    "Verif.Vtf.created_partial",
    "Verif.Vtf.derived_not_created",
    "Verif.Vtf.not_created"
   ],
   "note": "the claim is false of the code: the constructor reads an attribute that is never set (not_created); proved for derived classes that define that attribute"
  },
  {
   "property": "C62",
   "status": "proved",
   "theorems": [
    "Verif.Session.open_sif_first",
    "Verif.Session.open_sif_top",
    "Verif.Session.open_sif_hydro",
    "Verif.Session.open_sif_object",
    "Verif.Session.lower_object",
    "Verif.Session.open_hdf5_holds",
    "Verif.Session.open_hdf5_left",
    "Verif.Session.convert_then_open",
    "Verif.Session.open_sif_other_number",
    "Verif.Session.open_sif_lower_case"
   ],
   "note": "opening an HDF5 file that is already open with open_hdf5 is allowed in the model"
  },
  {
   "property": "C63",
   "status": "proved",
   "theorems": [
    "Verif.Session.same_name_refused",
    "Verif.Session.opened_sif_memory",
    "Verif.Session.name_free_after_close",
    "Verif.Session.close_object_closes_file",
    "Verif.Session.object_reads_same",
    "Verif.Session.closed_object_raises",
    "Verif.Session.open_output_refused"
   ],
   "note": ""
  },
  {
   "property": "C64",
   "status": "proved",
   "theorems": [
    "Verif.Parse.wrong_record_refused",
    "Verif.Parse.halts_refused",
    "Verif.Parse.bad_ident_refused",
    "Verif.Parse.untyped_refused",
    "Verif.Parse.untyped_lower_refused",
    "Verif.Parse.untyped_lower_table",
    "Verif.Conv.refused_file",
    "Verif.Conv.refused_in_memory"
   ],
   "note": "what is left in the output file: C75; unformatted files that end too early: C76"
  },
  {
   "property": "C65",
   "status": "proved",
   "theorems": [
    "Verif.Conv.line_ends",
    "Verif.Conv.relative_name",
    "Verif.Conv.absolute_name",
    "Verif.Conv.output_name_taken",
    "Verif.Conv.output_file_open",
    "Verif.Conv.memory_name_taken"
   ],
   "note": "no symbolic links, `.` and `..` in names; an output file left behind by a conversion that raised stays open"
  },
  {
   "property": "C66",
   "status": "proved",
   "theorems": [
    "Verif.Data.empty_selection",
    "Verif.Data.nodeless_selection"
   ],
   "note": ""
  },
  {
   "property": "C67",
   "status": "proved",
   "theorems": [
    "Verif.Parse.void_record_skipped",
    "Verif.Parse.void_record_stored"
   ],
   "note": ""
  },
  {
   "property": "C68",
   "status": "proved",
   "theorems": [
    "Verif.Session.data_str",
    "Verif.Session.data_repr",
    "Verif.Session.file_str",
    "Verif.Session.converted_structural",
    "Verif.Session.file_repr_none",
    "Verif.Session.file_repr_one",
    "Verif.Session.file_repr_many",
    "Verif.Session.closed_str"
   ],
   "note": "names without quotes, backslashes and control characters"
  },
  {
   "property": "C69",
   "status": "proved",
   "theorems": [
    "Verif.round_rounds",
    "Verif.Rounds.eq",
    "Verif.round_exact",
    "Verif.round_idem",
    "Verif.single_int",
    "Verif.Seq.f32le_bits",
    "Verif.Seq.single_f32le",
    "Verif.Seq.single_bytes",
    "Verif.Seq.floatStd_numeral",
    "Verif.Seq.floatStd_ok",
    "Verif.Seq.rounds_twice",
    "Verif.Parse.one_row_per_record",
    "Verif.Data.Load.file_to_mesh"
   ],
   "note": "numerals with underscores and the sign of zero are not modelled; calculations on stored values are exact in the model"
  },
  {
   "property": "C70",
   "status": "proved",
   "theorems": [
    "Verif.Session.spared_open",
    "Verif.Session.object_stays",
    "Verif.Session.session_object",
    "Verif.Session.session_mesh",
    "Verif.Session.session_node_results",
    "Verif.Session.session_element_results",
    "Verif.Session.session_sections",
    "Verif.Session.session_set_names",
    "Verif.Session.session_hydro",
    "Verif.Session.session_hierarchy"
   ],
   "note": "close_all_files is not among the other calls: it closes some File (C26)"
  },
  {
   "property": "C71",
   "status": "proved",
   "theorems": [
    "Verif.Export.export_mesh",
    "Verif.Export.export_node_results",
    "Verif.Export.export_element_results",
    "Verif.Export.export_refused",
    "Verif.Export.unsupported_blocks",
    "Verif.Export.empty_refused",
    "Verif.Export.export_unsupported",
    "Verif.Session.session_export_node_results",
    "Verif.Session.session_export_element_results"
   ],
   "note": "for element types with a VTK cell type; the bytes of a number are a parameter of the statement; the results of 6-node triangles are rearranged to corners first, as C46 says"
  },
  {
   "property": "C72",
   "status": "proved",
   "theorems": [
    "Verif.Parse.missing_items",
    "Verif.Parse.wave_references_exact"
   ],
   "note": "the exact companion of C21, without a selection of record types"
  },
  {
   "property": "C73",
   "status": "proved",
   "theorems": [
    "Verif.Conv.history_is_elements",
    "Verif.Parse.elements_kept",
    "Verif.Parse.second_conversion"
   ],
   "note": "the exact companion of C16; elements_kept for conversions that succeed, without a selection of record types"
  },
  {
   "property": "C74",
   "status": "proved",
   "theorems": [
    "Verif.Conv.append_keeps",
    "Verif.Conv.first_file_kept"
   ],
   "note": "attributes of a group may be replaced when a file with the same group is added"
  },
  {
   "property": "C75",
   "status": "proved",
   "theorems": [
    "Verif.Conv.refused_file",
    "Verif.Conv.refused_in_memory",
    "Verif.Parse.wrong_record_left",
    "Verif.Parse.halts_left",
    "Verif.Parse.bad_ident_left",
    "Verif.Parse.untyped_left",
    "Verif.Parse.untyped_lower_left",
    "Verif.Parse.arrays_left",
    "Verif.Session.open_hdf5_left",
    "Verif.Session.open_hdf5_incomplete",
    "Verif.Session.open_after_failure",
    "Verif.Session.open_sif_never_again",
    "Verif.Session.failed_conversion_blocks"
   ],
   "note": "for the files of C64; exceptions for other reasons leave a file that C74 speaks of"
  },
  {
   "property": "C76",
   "status": "proved",
   "theorems": [
    "Verif.Parse.formatted_cut",
    "Verif.Parse.unformatted_cut",
    "Verif.Parse.Accepts.cut",
    "Verif.Parse.Accepts.ends",
    "Verif.Parse.cut_inside_record"
   ],
   "note": "files that end between records; formatted files that end inside a record: C85, and for element records the example cut_inside_record"
  },
  {
   "property": "C77",
   "status": "proved",
   "theorems": [
    "Verif.Parse.only_without_end",
    "Verif.Parse.only_without_end_refused",
    "Verif.Parse.Accepts.selectOpen"
   ],
   "note": "records of types outside the selection must have one of the layouts that can be passed over; the end record is the last one"
  },
  {
   "property": "C78",
   "status": "proved",
   "theorems": [
    "Verif.Vtu.connectivity_again",
    "Verif.Vtu.piece_again",
    "Verif.Vtu.refused_reorders",
    "Verif.Vtu.right_iff",
    "Verif.Vtu.results_again",
    "Verif.Vtu.results_written",
    "Verif.Vtu.right_res_iff",
    "Verif.Vtu.others_kept",
    "Verif.Vtu.same_arrays_differ"
   ],
   "note": "the caller is taken not to change offsets and types; elements have the number of nodes of their type"
  },
  {
   "property": "C79",
   "status": "proved",
   "theorems": [
    "Verif.Data.disconnected_results",
    "Verif.Data.usedBefore_eq",
    "Verif.Data.disconnected_no_elements"
   ],
   "note": "the exact companion of C32"
  },
  {
   "property": "C80",
   "status": "proved",
   "theorems": [
    "Verif.Data.Hydro.given",
    "Verif.Data.Hydro.own_contents",
    "Verif.Data.Hydro.fresh_contents",
    "Verif.Data.Hydro.write_outcome",
    "Verif.Data.Hydro.getters_after",
    "Verif.Data.Hydro.results_after"
   ],
   "note": "numbers are exact; a write outside an array raises IndexError and does nothing"
  },
  {
   "property": "C81",
   "status": "proved",
   "theorems": [
    "Verif.Data.Life.open_any",
    "Verif.Data.Life.open_shows",
    "Verif.Data.Life.shown_lookup"
   ],
   "note": "the exact companion of C54; keys of a file are distinct (names in an HDF5 group are)"
  },
  {
   "property": "C82",
   "status": "proved",
   "theorems": [
    "Verif.Session.hdf5_object",
    "Verif.Session.both_ways",
    "Verif.Session.two_in_one"
   ],
   "note": "without a selection of record types; both_ways for an HDF5 file that is new or overwritten"
  },
  {
   "property": "C83",
   "status": "proved",
   "theorems": [
    "Verif.Data.node_results_any",
    "Verif.Data.complex_node_results",
    "Verif.Data.Demo.missing_results_shift",
    "Verif.Data.Demo.complex_rows_mix",
    "Verif.Data.node_results_places",
    "Verif.Data.Demo.complex_places_raise",
    "Verif.Data.element_results_any",
    "Verif.Data.element_results_any_complex",
    "Verif.Data.Demo.missing_forces_shift",
    "Verif.Session.session_node_records",
    "Verif.Session.session_node_places",
    "Verif.Session.session_element_records_complex",
    "Verif.Session.session_element_records"
   ],
   "note": "the exact companion of C20, C32 and C50; element results of which the axes differ raise (C50)"
  },
  {
   "property": "C84",
   "status": "proved",
   "theorems": [
    "Verif.Data.bytes_never",
    "Verif.Data.bytes_error",
    "Verif.Data.returned_names",
    "Verif.Data.empty_bytes",
    "Verif.Session.session_bytes"
   ],
   "note": "byte strings of numpy 2 (those get_setnames returns); a plain bytes object in a sequence raises SyntaxError instead of NameError"
  },
  {
   "property": "C85",
   "status": "proved",
   "theorems": [
    "Verif.Parse.formatted_cut_inside"
   ],
   "note": "records of the fixed layouts and of those with optional fields; records with a counted list that are cut are in the example cut_inside_record of C76"
  },
  {
   "property": "C86",
   "status": "proved",
   "theorems": [
    "Verif.Parse.unformatted_filled"
   ],
   "note": ""
  },
  {
   "property": "C87",
   "status": "proved",
   "theorems": [
    "Verif.Parse.formatted_cut_line",
    "Verif.Parse.formatted_cut_number"
   ],
   "note": "the exception is for numbers that a column of the table is for, not for those that only fill up a line"
  }
 ]
}