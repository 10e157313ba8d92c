# Functions of the code and the definitions that model them

One line per function or method in `/repo/freesif`: where it is, and the Lean definitions whose comments
cite its lines (module: names).  The simplifications are in the comments and in `DESIGN.md`.

| file | function | lines | model |
|------|----------|-------|-------|
| `calc/general.py` | `absmax` | 11-16 | Calc/Model: absmax, absmaxRows |
| `calc/general.py` | `find_elemres_indices` | 19-34 | Calc/Model: findOne, findElemresIndices |
| `calc/principal.py` | `principal2d` | 13-29 | Calc/Model: principal2dPt, principal2d |
| `calc/principal.py` | `principal_thickshell` | 32-66 | Calc/Model: stressTensor, argminAbs3, delete3, principalThickPt, principalThick |
| `calc/vonmises.py` | `vonmises2d` | 11-22 | Calc/Model: vonmises2dPt, vonmises2d |
| `calc/vonmises.py` | `vonmises_thickshell` | 25-26 | Calc/Model: vonmisesThickshell |
| `data/file.py` | `open_hdf5` | 18-26 | Session/Model: openHdf5 |
| `data/file.py` | `open_sif` | 28-43 | Data/Life: openSif; Session/Model: openSif |
| `data/file.py` | `close_all_files` | 45-49 | Data/Life: closeLoop, closeAll; Session/Model: closeAll |
| `data/file.py` | `File.__init__` | 56-113 | Data/Life: Owner, classOf, subClass, addSubs, addGroups ...; Session/Model: subDesc, describe, openTables |
| `data/file.py` | `File.__getitem__` | 115-117 | Data/Life: getItem |
| `data/file.py` | `File.get` | 119-121 | Data/Life: get |
| `data/file.py` | `File.keys` | 123-125 | Data/Life: keys |
| `data/file.py` | `File.values` | 127-129 | Data/Life:values |
| `data/file.py` | `File.items` | 131-133 | Data/Life:items |
| `data/file.py` | `File.__contains__` | 135-137 | Data/Life:contains |
| `data/file.py` | `File.__str__` | 139-148 | Session/Print: itemLine, fileStr |
| `data/file.py` | `File.__repr__` | 150-159 | Session/Print: fileRepr |
| `data/file.py` | `File.__iter__` | 161-162 | Data/Life: iterate |
| `data/file.py` | `File._check_isopen` | 164-167 | Data/Life: items |
| `data/file.py` | `File.close` | 169-184 | Data/Life: closeFile; Session/Model: closeFile |
| `data/helpers.py` | `getrow` | 12-18 | Data/Struc: getrow |
| `data/helpers.py` | `getvldata` | 21-27 | not used by the package (same loop as SifData._get_varlendata) |
| `data/helpers.py` | `parse_sifname` | 29-46 | Conv/Names: SifName, sifTail, sifMatch, parseSifname |
| `data/hydrodata.py` | `HydroData.__init__` | 51-89 | Data/Hydro: HydroTabs, countRows, hydroInit; Data/Load: second, loadRefs, globRow; Data/Nd: npUniqueInOrder |
| `data/hydrodata.py` | `HydroData._get_ibcond` | 91-95 | Data/Hydro: getIbcond; Data/Load: bodconRow |
| `data/hydrodata.py` | `HydroData._get_results` | 97-113 | Data/Hydro: getResults; Data/Load: cplxBodyRow |
| `data/hydrodata.py` | `HydroData._assert_domaintype` | 115-119 | Data/Hydro: assertDomain |
| `data/hydrodata.py` | `HydroData.get_angular_freqs` | 121-125 | Data/Hydro: getAngularFreqs; Data/HydroOwn: Deed.run |
| `data/hydrodata.py` | `HydroData.get_periods` | 127-131 | Data/Hydro: getPeriods; Data/HydroOwn: Deed.run |
| `data/hydrodata.py` | `HydroData.get_directions` | 133-143 | Data/Hydro: getDirections; Data/HydroOwn: Deed.run |
| `data/hydrodata.py` | `HydroData.get_timesteps` | 145-149 | Data/Hydro: getTimesteps; Data/HydroOwn: Deed.run |
| `data/hydrodata.py` | `HydroData.get_sections` | 151-162 | Data/Hydro: getSections; Data/Load: sectionRow |
| `data/hydrodata.py` | `HydroData.get_points` | 164-176 | Data/Hydro: getPoints; Data/Load: pointRow |
| `data/hydrodata.py` | `HydroData.get_bodyproperties` | 178-187 | Data/Hydro: getBodyProperties; Data/Load: bodyPropRow |
| `data/hydrodata.py` | `HydroData.get_motion_raos` | 189-213 | Data/Hydro: getRaos, getMotionRaos; Data/Load: cplxBodyRow |
| `data/hydrodata.py` | `HydroData.get_excitationforce_raos` | 215-236 | Data/Hydro: getRaos, getExcitationForceRaos; Data/Load: cplxBodyRow |
| `data/hydrodata.py` | `HydroData.get_sectionforce_raos` | 238-259 | Data/Hydro: getSectionForceRaos; Data/Load: cplxBodyRow |
| `data/hydrodata.py` | `HydroData.get_fluidkinematics_raos` | 261-293 | Data/Hydro: getFluidKinematicsRaos; Data/Load: fluidRow |
| `data/hydrodata.py` | `HydroData.get_matrix` | 295-334 | Data/Hydro: getMatrix; Data/Load: matrixRow |
| `data/hydrodata.py` | `HydroData.get_bodymass` | 336-339 | Data/Hydro: getBodymass |
| `data/hydrodata.py` | `HydroData.get_addedmass` | 341-344 | Data/Hydro: getAddedmass |
| `data/hydrodata.py` | `HydroData.get_potentialdamping` | 346-349 | Data/Hydro: getPotentialdamping |
| `data/hydrodata.py` | `HydroData.get_viscousdamping` | 351-354 | Data/Hydro: getViscousdamping |
| `data/hydrodata.py` | `HydroData.get_hydrostatic_restoring` | 356-359 | Data/Hydro: getHydrostaticRestoring |
| `data/hydrodata.py` | `HydroData.get_mooring_restoring` | 361-364 | Data/Hydro: getMooringRestoring |
| `data/hydrodata.py` | `HydroData.get_meandrift` | 366-385 | Data/Hydro: getRaos, getMeandrift; Data/Load: driftRow |
| `data/hydrodata.py` | `HydroData.get_horiz_meandrift` | 387-406 | Data/Hydro: getRaos, getHorizMeandrift; Data/Load: driftRow |
| `data/hydrodata.py` | `HydroData._n_pressure_panels` | 408-412 | Data/Hydro: countDistinct; Data/Load: panelRow |
| `data/hydrodata.py` | `HydroData._n_symmetry_parts` | 414-418 | Data/Hydro: countDistinct; Data/Load: panelRow |
| `data/hydrodata.py` | `HydroData.get_pressure_panel_ids` | 420-453 | Data/Hydro: getPressurePanelIds; Data/Load: panelRow |
| `data/hydrodata.py` | `HydroData.get_panel_pressures` | 455-480 | Data/Hydro: getPanelPressures; Data/Load: panelRow |
| `data/sifdata.py` | `SifData.__init__` | 16-35 | Data/Load: loadStruc, loadTop; Session/Model: describe; Session/Print: dataRepr |
| `data/sifdata.py` | `SifData.__str__` | 37-48 | Session/Print: dataStr |
| `data/sifdata.py` | `SifData.__repr__` | 50-56 | Session/Print: dataRepr |
| `data/sifdata.py` | `SifData.__del__` | 58-59 | no body |
| `data/sifdata.py` | `SifData._check_isopen` | 61-64 | Data/Hydro: assertDomain; Session/Model: groupOf |
| `data/sifdata.py` | `SifData._get_record` | 66-91 | Data/Load: table, array; Data/Struc: need |
| `data/sifdata.py` | `SifData._get_varlendata` | 93-108 | Data/Struc: runningEnds, varLenData |
| `data/sifdata.py` | `SifData._has_record` | 110-112 | Data/Struc:resolveTrans (condition on recNames) |
| `data/sifdata.py` | `SifData._record_info` | 114-118 | not modelled |
| `data/sifdata.py` | `SifData.close` | 120-127 | Data/Life: closeDataAux; Session/Model: closeData |
| `data/sifdata.py` | `SifData._close` | 129-131 | Data/Life:closeData, closeFile |
| `data/strucdata.py` | `StrucData.__init__` | 18-28 | Data/Struc:Struc, Data/Life:addSubs |
| `data/strucdata.py` | `StrucData._get_setmember_indices` | 30-49 | Data/Load: nameRow, membRow; Data/Struc: SetsArg.names, membersOf, setMemberIndices |
| `data/strucdata.py` | `StrucData._get_elementkind_indices` | 51-82 | Data/Load: elemRow; Data/Struc: isBeam, isShell, ofKind, elementKindIndices |
| `data/strucdata.py` | `StrucData._get_elementindices` | 84-98 | Data/Load: elemRow; Data/Struc: elementIndices |
| `data/strucdata.py` | `StrucData._get_connectivity` | 100-112 | Data/Load: elemRow; Data/Struc: connectivity |
| `data/strucdata.py` | `StrucData._update_connectivity` | 114-122 | Data/Load: elemRow; Data/Struc: updateConnectivity |
| `data/strucdata.py` | `StrucData._get_nodeindices_ofelems` | 124-132 | Data/Load: elemRow |
| `data/strucdata.py` | `StrucData._get_nodeindices` | 134-152 | Data/Struc: nodeIndices |
| `data/strucdata.py` | `StrucData._get_resrefs` | 154-174 | Data/Load: refRow; Data/Struc: resRefs |
| `data/strucdata.py` | `StrucData._check_complex_and_get_flag` | 176-181 | Data/Load: refRow; Data/Struc: complexFlag |
| `data/strucdata.py` | `StrucData.get_setnames` | 183-189 | Data/Load: nameRow; Data/Struc: getSetNames |
| `data/strucdata.py` | `HigherLevelData.get_nodes` | 211-213 | not modelled (no body) |
| `data/strucdata.py` | `TopLevelData.get_transformation` | 221-256 | Data/Load: hierRow, tranRow; Data/Struc: climb, pathMatrix, getTransformation |
| `data/strucdata.py` | `FirstLevelData.__init__` | 324-335 | Data/Elem: processElem; Data/Load: loadStruc |
| `data/strucdata.py` | `FirstLevelData._process_element_results` | 337-340 | Data/Elem: processElem |
| `data/strucdata.py` | `FirstLevelData._process_eltyp15` | 342-346 | Data/Elem: process15 |
| `data/strucdata.py` | `FirstLevelData._process_eltyp23` | 348-353 | Data/Elem: process23 |
| `data/strucdata.py` | `FirstLevelData._process_eltyp24` | 355-360 | Data/Elem: processThin |
| `data/strucdata.py` | `FirstLevelData._process_eltyp25` | 362-367 | Data/Elem: processThin |
| `data/strucdata.py` | `FirstLevelData._process_eltyp26` | 369-381 | Data/Elem: toSurface, processThick |
| `data/strucdata.py` | `FirstLevelData._process_eltyp28` | 383-395 | Data/Elem: toSurface, processThick |
| `data/strucdata.py` | `FirstLevelData._extrapolate_to_surface` | 397-402 | Data/Elem: toSurface |
| `data/strucdata.py` | `FirstLevelData._decompose_stresses_thick` | 404-405 | Data/Elem: decomposeThick |
| `data/strucdata.py` | `FirstLevelData._decompose_stresses_thin` | 407-408 | Data/Elem: decomposeThin |
| `data/strucdata.py` | `FirstLevelData.get_nodes` | 411-483 | Data/Load: coordRow, tranRow; Data/Struc: resolveTrans, applyMatrix, getNodes; Export/Model: pointsArr |
| `data/strucdata.py` | `FirstLevelData.get_nodenumbers` | 485-500 | Data/Load: nodeRow; Data/Struc: getNodeNumbers |
| `data/strucdata.py` | `FirstLevelData.get_noderesults` | 502-577 | Data/Load: refRow, nodeResRow; Data/Struc: asComplex, asNums, reshapeNodes, takeNodes, nodeResTable ... |
| `data/strucdata.py` | `FirstLevelData.get_elements` | 619-688 | Data/Load: elemRow; Data/Struc: getElements; Export/Model: intArr |
| `data/strucdata.py` | `FirstLevelData.get_elementnumbers` | 690-705 | Data/Load: elemRow; Data/Struc: getElementNumbers |
| `data/strucdata.py` | `FirstLevelData.get_elementresults` | 707-807 | Data/Elem: splitCases, collect, elemResTable, getElementResults; Data/Load: elemResRow |
| `data/strucdata.py` | `FirstLevelData.get_concepts` | 897-898 | not modelled (no body) |
| `data/strucdata.py` | `FirstLevelData.get_conceptresults` | 900-901 | not modelled (no body) |
| `data/strucdata.py` | `FirstLevelData.get_conceptnames` | 903-904 | not modelled (no body) |
| `data/strucdata.py` | `FirstLevelData.get_section_properties` | 906-916 | Data/Load: beamRow; Data/Struc: getSectionProperties |
| `data/strucdata.py` | `FirstLevelData.get_shell_thicknesses` | 918-928 | Data/Load: thickRow; Data/Struc: getShellThicknesses |
| `data/strucdata.py` | `FirstLevelData.get_properties` | 934-942 | not modelled (no body) |
| `data/strucdata.py` | `FirstLevelData.get_resultcase_info` | 944-945 | not modelled (no body) |
| `data/strucdata.py` | `FirstLevelData.get_result_component_names` | 947-948 | not modelled (no body) |
| `data/strucdata.py` | `FirstLevelData.get_resultcase_names` | 950-972 | Data/Load: nameRow; Data/Struc: getResultcaseNames |
| `sequentialparser/parsers.py` | `reset` | 137-162 | Parse/Parser: reset |
| `sequentialparser/parsers.py` | `recdata.__init__` | 172-176 | Parse/Store: Work.open |
| `sequentialparser/parsers.py` | `recdata.add` | 178-188 | Parse/Left: writeVlsLeft, Work.addLeft; Parse/Store: storeCells, storeRow, Work.write, bounds, Work.add |
| `sequentialparser/parsers.py` | `recdata.write` | 190-195 | Parse/Left: writeVlsLeft, Work.writeLeft; Parse/Store: Work.write |
| `sequentialparser/parsers.py` | `vldata.__init__` | 199-204 | Parse/Store: Vl, Vl.init |
| `sequentialparser/parsers.py` | `vldata.add` | 206-214 | Parse/Store: Vl.add |
| `sequentialparser/parsers.py` | `vldata.write` | 216-219 | Parse/Store: appendItems, Vl.write |
| `sequentialparser/parsers.py` | `has_hierarchy` | 225-226 | Conv/Driver:parseAll (field hasHierarch) |
| `sequentialparser/parsers.py` | `get_hierarch_table` | 229-230 | Conv/Driver:hierarchTail |
| `sequentialparser/parsers.py` | `set_current_ihref` | 233-239 | Parse/Parser: setCurrentIhref |
| `sequentialparser/parsers.py` | `set_groupname_prefix` | 242-244 | Conv/Driver:convertFile |
| `sequentialparser/parsers.py` | `set_filetypeid` | 247-249 | Conv/Driver:parseAll |
| `sequentialparser/parsers.py` | `get_path` | 252-277 | Conv/Driver: convertListed; Parse/Parser: getPath |
| `sequentialparser/parsers.py` | `get_table` | 284-340 | Parse/Descr: boundCols; Parse/Parser: getTable |
| `sequentialparser/parsers.py` | `standard_record_reader` | 343-372 | Parse/Parser: loop; Parse/Readers: padCut, standardBody |
| `sequentialparser/parsers.py` | `standard_record_reader.record_reader` | 349-370 | Parse/Parser: loop; Parse/Readers: padCut, standardBody |
| `sequentialparser/parsers.py` | `reader_optionalfields` | 375-410 | Parse/Readers: padCut, optionalBody |
| `sequentialparser/parsers.py` | `reader_optionalfields.record_reader` | 384-408 | Parse/Readers: padCut, optionalBody |
| `sequentialparser/parsers.py` | `general_parser` | 416-443 | Parse/Left: generalLeft; Parse/Parser: skipLoop, generalParser |
| `sequentialparser/parsers.py` | `parse_file` | 446-515 | Parse/Convert: parseUnformatted, parseFormatted, parseSource; Parse/Left: parseLoopLeft, attributesLeft, fileLeft; Parse/Parser: Attrs, skipLoop, selected, parseLoop, removeDups ... |
| `sequentialparser/parsers.py` | `parse_file.remove_dups_preseve_order` | 469-472 | Parse/Convert: parseUnformatted, parseFormatted, parseSource; Parse/Left: attributesLeft, fileLeft; Parse/Parser: removeDups, setAttributes, parseFile |
| `sequentialparser/parsers.py` | `irecsize` | 524-527 | Parse/Parser: runReader |
| `sequentialparser/parsers.py` | `hierarch_reader` | 550-596 | Parse/Left: hierarchLeft; Parse/Parser: hierarchReader; Parse/Readers: hierarchRest, hierarchBody |
| `sequentialparser/parsers.py` | `text_reader` | 617-636 | Parse/Readers: textBody; Seq/Ops: LineMode |
| `sequentialparser/parsers.py` | `ident_reader` | 652-667 | Parse/Left: identLeft; Parse/Parser: identReader |
| `sequentialparser/parsers.py` | `iend` | 675-679 | Parse/Parser: runReader |
| `sequentialparser/parsers.py` | `td_reader` | 703-734 | Parse/Readers: tdBody; Seq/Ops: LineMode |
| `sequentialparser/parsers.py` | `gelmnt1_reader` | 783-803 | Parse/Left: bodyLeft; Parse/Readers: gelmnt1Body |
| `sequentialparser/parsers.py` | `gelmnt2_reader` | 825-844 | Parse/Readers: gelmnt2Body |
| `sequentialparser/parsers.py` | `gelref1_reader` | 875-923 | Parse/Readers: gelref1Ref, gelref1Body |
| `sequentialparser/parsers.py` | `gsetmemb_reader` | 1210-1228 | Parse/Readers: gsetmembBody |
| `sequentialparser/parsers.py` | `sconcept_reader` | 1268-1311 | Parse/Readers: sconceptBody |
| `sequentialparser/parsers.py` | `sconmesh_reader` | 1332-1354 | Parse/Readers: sconmeshBody, sconmeshCheck |
| `sequentialparser/parsers.py` | `bnbcd_reader` | 1372-1392 | Parse/Readers: bnbcdBody |
| `sequentialparser/parsers.py` | `bldep_reader` | 1413-1428 | Parse/Readers: bldepBody |
| `sequentialparser/parsers.py` | `beuslo_reader` | 1453-1477 | Parse/Readers: beusloBody |
| `sequentialparser/parsers.py` | `brigac_reader` | 1528-1546 | Parse/Readers: brigacBody |
| `sequentialparser/parsers.py` | `xsuptran_reader` | 1564-1582 | Parse/Readers: xsuptranBody |
| `sequentialparser/parsers.py` | `compdef_reader` | 1599-1620 | Parse/Readers: compdefBody |
| `sequentialparser/parsers.py` | `rdpoints_reader` | 1649-1705 | Parse/Readers: respoint, xform, rdpointsBody |
| `sequentialparser/parsers.py` | `rdielcor_reader` | 1728-1774 | Parse/Readers: rdielcorGrid, rdielcorBody |
| `sequentialparser/parsers.py` | `rdresref_reader` | 1798-1825 | Parse/Readers: rdresrefBody |
| `sequentialparser/parsers.py` | `rxxxxcmb_reader` | 1848-1865 | Parse/Readers: triplesBody |
| `sequentialparser/parsers.py` | `rvnodres_reader` | 1895-1916 | Parse/Readers: rvnodresBody |
| `sequentialparser/parsers.py` | `rvelmres_reader` | 1950-1976 | Parse/Readers: rvelmresBody |
| `sequentialparser/parsers.py` | `wbodcon_reader` | 1997-2013 | Parse/Readers: triplesBody |
| `sequentialparser/parsers.py` | `wdresref_reader` | 2035-2057 | Parse/Readers: wdresrefType, wdresrefAdds, wdresrefBody |
| `sequentialparser/parsers.py` | `wglobdef_reader` | 2076-2088 | Parse/Readers: wglobdefBody |
| `sequentialparser/parsers.py` | `wbody_reader` | 2118-2129 | Parse/Readers: wbodyBody |
| `sequentialparser/parsers.py` | `w1matrix_reader` | 2148-2159 | Parse/Readers: w1matrixBody |
| `sequentialparser/parsers.py` | `wcommon1_reader` | 2177-2193 | Data/Hydro: BodyRow; Parse/Readers: sixValues, wcommonBody |
| `sequentialparser/parsers.py` | `W1SFORCE_reader` | 2214-2230 | Parse/Readers: sixValues, w1sforceBody |
| `sequentialparser/parsers.py` | `W2HDRIFT_reader` | 2247-2255 | Parse/Readers: driftBody |
| `sequentialparser/parsers.py` | `W2MDRIFT_reader` | 2272-2280 | Parse/Readers: driftBody |
| `sequentialparser/parsers.py` | `WFKPOINT_reader` | 2299-2308 | Parse/Readers: wfkpointBody |
| `sequentialparser/parsers.py` | `WFLUIDKN_reader` | 2327-2344 | Parse/Readers: wfluidknBody |
| `sequentialparser/parsers.py` | `WSECTION_reader` | 2370-2379 | Parse/Readers: wsectionBody |
| `sequentialparser/parsers.py` | `WSURFACE_reader` | 2401-2432 | Parse/Readers: zelevComps, zelevRec, wsurfaceBody |
| `sequentialparser/parsers.py` | `WINPUT_reader` | 2447-2456 | Parse/Readers: winputBody |
| `sequentialparser/parsers.py` | `W1PANPRE_reader` | 2476-2496 | Parse/Readers: w1panpreBody |
| `sequentialparser/sequentialfiles.py` | `SequentialFile.__init__` | 91-92 | Seq/Writer: writeLine |
| `sequentialparser/sequentialfiles.py` | `SequentialFile.skip_restofrecord` | 95-146 | Seq/Files: readStrings, skipRestofrecord, readStringrec; Seq/Writer: writeLine |
| `sequentialparser/sequentialfiles.py` | `SequentialFile.get_recordcount` | 148-165 | Seq/Files: bump, countLoop, getRecordcount; Seq/Writer: writeLine |
| `sequentialparser/sequentialfiles.py` | `SequentialFile.close` | 167-168 | Seq/Writer: writeLine |
| `sequentialparser/sequentialfiles.py` | `UnformattedFile.__init__` | 173-180 | Seq/Files: openFile, blanks |
| `sequentialparser/sequentialfiles.py` | `UnformattedFile.read_stringrec` | 182-191 | Seq/Files: readStringrec |
| `sequentialparser/sequentialfiles.py` | `UnformattedFile.tofloatrec` | 193-194 | Seq/Base: Dec; Seq/Files: tofloatrec |
| `sequentialparser/sequentialfiles.py` | `UnformattedFile.read_floatrec` | 196-197 | Seq/Files: readFloatrec |
| `sequentialparser/sequentialfiles.py` | `UnformattedFile.read_headerrec` | 199-201 | Seq/Files: asHeader, readHeader |
| `sequentialparser/sequentialfiles.py` | `UnformattedFile.read_floats` | 203-236 | Seq/Files: finishFloats, readLoop, readFloats |
| `sequentialparser/sequentialfiles.py` | `UnformattedFile.at_headerrec` | 238-250 | Seq/Files: peekName, atHeaderrec |
| `sequentialparser/sequentialfiles.py` | `UnformattedFile.strip_recname` | 252-253 | Seq/Files: asHeader |
| `sequentialparser/sequentialfiles.py` | `UnformattedFile.skip_contrecs` | 255-258 | Seq/Files: skipContrecs, asHeader |
| `sequentialparser/sequentialfiles.py` | `FormattedFile.__init__` | 264-270 | Seq/Files: openFile, blanks; Seq/Writer: openFile |
| `sequentialparser/sequentialfiles.py` | `FormattedFile.read_stringrec` | 273-276 | Seq/Files: lineOf, readStringrec |
| `sequentialparser/sequentialfiles.py` | `FormattedFile.tofloatrec` | 278-280 | Seq/Base: Dec; Seq/Files: tofloatrec |
| `sequentialparser/sequentialfiles.py` | `FormattedFile.read_floatrec` | 283-284 | Seq/Files: readFloatrec |
| `sequentialparser/sequentialfiles.py` | `FormattedFile.read_headerrec` | 286-294 | Seq/Files: asHeader, readHeader |
| `sequentialparser/sequentialfiles.py` | `FormattedFile.read_floats` | 296-326 | Seq/Files: finishFloats, readLines, readFloats |
| `sequentialparser/sequentialfiles.py` | `FormattedFile.at_headerrec` | 328-339 | Seq/Files: peekName, atHeaderrec |
| `sequentialparser/sequentialfiles.py` | `FormattedFile.strip_recname` | 341-342 | Seq/Files (part of the name handling) |
| `sequentialparser/sequentialfiles.py` | `FormattedFile.skip_contrecs` | 344-347 | Seq/Files: skipContrecs, asHeader |
| `sequentialparser/sequentialfiles.py` | `FormattedFile._write_line` | 349-361 | Seq/Writer: writeLine |
| `sequentialparser/sequentialfiles.py` | `FormattedFile.write_string` | 363-367 | Seq/Writer: writeString |
| `sequentialparser/sequentialfiles.py` | `FormattedFile.write_floats` | 369-395 | Seq/Writer: writeLines, writeFloats |
| `sequentialparser/sequentialfiles.py` | `FormattedFile.write_record` | 400-402 | Seq/Writer: writeRecord |
| `sequentialparser/sif2hdf5.py` | `sif2hdf5` | 14-304 | Conv/Driver: sourceOf, candidates, readLower, lowerNames, parseAll ...; Conv/Names: NameInfo, convTail, convMatch |
| `utils/vtfdata.py` | `_reformatdata` | 51-62 | not modelled: no VtfData object can be created (C61) |
| `utils/vtfdata.py` | `Nodes.__init__` | 74-77 | not modelled: no VtfData object can be created (C61) |
| `utils/vtfdata.py` | `Scalar.__init__` | 84-87 | not modelled: no VtfData object can be created (C61) |
| `utils/vtfdata.py` | `Elements.__init__` | 95-102 | not modelled: no VtfData object can be created (C61) |
| `utils/vtfdata.py` | `Results.__init__` | 111-115 | not modelled: no VtfData object can be created (C61) |
| `utils/vtfdata.py` | `VtfData.__init__` | 127-157 | Vtf/Model: basic, construct, vtfClass |
| `utils/vtfdata.py` | `VtfData._get_new_id` | 160-163 | not modelled: no VtfData object can be created (C61) |
| `utils/vtfdata.py` | `VtfData._get_current_id` | 165-166 | not modelled: no VtfData object can be created (C61) |
| `utils/vtfdata.py` | `VtfData.read` | 168-399 | not modelled: no VtfData object can be created (C61) |
| `utils/vtfdata.py` | `VtfData.read.get_next_line` | 175-179 | not modelled: no VtfData object can be created (C61) |
| `utils/vtfdata.py` | `VtfData.add_nodes` | 422-428 | not modelled: no VtfData object can be created (C61) |
| `utils/vtfdata.py` | `VtfData.add_elements` | 430-493 | not modelled: no VtfData object can be created (C61) |
| `utils/vtfdata.py` | `VtfData.add_scalar` | 495-507 | not modelled: no VtfData object can be created (C61) |
| `utils/vtfdata.py` | `VtfData.add_element_scalar_results` | 509-571 | not modelled: no VtfData object can be created (C61) |
| `utils/vtfdata.py` | `VtfData.write` | 573-705 | not modelled: no VtfData object can be created (C61) |
| `utils/writers.py` | `_reorder_data` | 43-49 | Vtu/Model: permuteSlice, reorderData |
| `utils/writers.py` | `_reorder_connectivity_vtk` | 51-55 | Vtu/Model:reorderData |
| `utils/writers.py` | `_reorder_cellpointdata_vtk` | 57-60 | Vtu/Model:reorderData |
| `utils/writers.py` | `VtuWriter.__init__` | 86-99 | Vtu/Model: init; Vtu/Shared: RCall.run |
| `utils/writers.py` | `VtuWriter.new_piece` | 102-131 | Vtu/Model: typeidmapper, newPiece; Vtu/Shared: conAfter, RCall.run |
| `utils/writers.py` | `VtuWriter.start_pointdata` | 133-134 | Vtu/Model: startPointdata; Vtu/Shared: RCall.run |
| `utils/writers.py` | `VtuWriter.start_celldata` | 136-137 | Vtu/Model: startCelldata; Vtu/Shared: RCall.run |
| `utils/writers.py` | `VtuWriter.add_data` | 139-144 | Vtu/Model: addData; Vtu/Shared: RCall.run |
| `utils/writers.py` | `VtuWriter.add_data_cellpoints` | 146-151 | Vtu/Model: addDataCellpoints; Vtu/Shared: resAfter, RCall.run |
| `utils/writers.py` | `VtuWriter.close` | 154-159 | Vtu/Model: close; Vtu/Shared: RCall.run |
| `utils/writers.py` | `VtuWriter._write_array` | 161-200 | Vtu/Model: b64encode, packQ, compAttrs, writeArray |
| `utils/writers.py` | `VtuWriter._close_piece` | 202-205 | Vtu/Model: closePiece |
| `utils/writers.py` | `VtuWriter._open_data` | 207-215 | Vtu/Model: startPointdata, startCelldata |
| `utils/writers.py` | `VtuWriter._close_data` | 217-223 | Vtu/Model: closeData |
| `utils/writers.py` | `VtuWriter._open_element` | 225-237 | Vtu/Model: attrStr, openElement |
| `utils/writers.py` | `VtuWriter._close_element` | 239-244 | Vtu/Model: closeElement |
