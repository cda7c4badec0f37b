import json
C=[]
def c(p,st,th,note=""): C.append(dict(property=p,status=st,theorems=th,note=note))
V="Verif."
c("C01","proved",[V+"designation_round_trip",V+"C01_number_round_trip",V+"C01_number_refused"])
c("C02","proved",[V+"C02_normal_round_trip"])
c("C03","proved",[V+"C03_extended_round_trip",V+"C03_extended_refused",V+"C03_century_lost"],"the non-invertibility outside 2025-2035 is C03_century_lost")
c("C04","proved",[V+"C04_survey_round_trip"])
c("C05","proved",[V+"C05_comet_round_trip",V+"designation_round_trip"])
c("C06","proved",[V+"C06_satellite_round_trip",V+"C06_satellite_zero_refused"])
c("C07","proved",[V+"C07_tracklet_round_trip",V+"C07_tracklet_eight",V+"C07_lookalike"])
c("C08","proved",[V+"C08_columns_injective",V+"C08_pack_injective"])
c("C09","proved",[V+"C09_twelve_columns"],"for every triple of arbitrary strings")
c("C10","proved",[V+"C10_unpack_only_RuntimeError",V+"C10_pack_errors",V+"C10_pack_no_provID",V+"C10_comet_late_year",V+"C10_extended_late_year",V+"C10_fragment_without_number"],"unpack: only RuntimeError, for every string; pack: the exact classes and the inputs that cause them, with families showing that they occur")
c("C11","proved",[V+"C11_contradiction_refused",V+"C11_comet_type_not_checked"],"the code does not compare orbit-type letters of comets: C11_comet_type_not_checked")
c("C12","proved",[V+"C12_decode_encode",V+"C12_encode_decode",V+"C12_order",V+"C12_wraps"])
c("C13","proved",[V+"C13_pack",V+"C13_unpack",V+"C13_round_trip",V+"C13_five_columns",V+"C13_mpc_broken",V+"C13_mpc_broken'",V+"C13_mps_broken",V+"C13_wraps",V+"C13_journal"])
c("C14","proved",[V+"C14_round_trip",V+"C14_injective",V+"C14_others_refused",V+"C14_read",V+"C14_read_refused",V+"C14_empty"])
c("C15","proved",[V+"C15_signed",V+"C15_unsigned",V+"C15_overflow"],"the documented refusal of numbers that do not fit does not exist: C15_overflow")
c("C16","proved",[V+"C16_catalogues",V+"C16_modes"])
c("C17","proved",[V+"C17_only_padding",V+"C17_strip",V+"C17_width",V+"C17_side",V+"C17_decimal",V+"C17_integer",V+"C17_decimal_errors"])
c("C18","proved",[V+"psv_meaning",V+"psv_call",V+"C18_rows",V+"C18_duplicate_column",V+"C18_too_many_cells",V+"row_cells"],"for every table set that satisfies Tab.WF and every line list")
c("C19","proved",[V+"C19_nesting",V+"psv_meaning"])
c("C20","proved",[V+"C20_every_line",V+"C20_unknown_line_refused",V+"psv_unambiguous"])
c("C21","proved",[V+"C21_second_call_fails"],"the English claim is false of the code: the second call in one process always fails on a file with two or more non-blank lines")
c("C22","proved",[V+"C22_line_ends",V+"C22_last_character_lost"],"both the true part and the defect")
c("C36","proved",[V+"C36_tree",V+"C36_top",V+"C36_events_determine",V+"C36_refused"])
c("C33","proved",[V+"C33_tables",V+"C33_order",V+"C33_required",V+"C33_exact",V+"C33_required_allowed",V+"C33_header",V+"C33_row",V+"C33_any_tables",V+"C33_psv_formats",V+"C33_sample",V+"adesTab_wf"])
c("C34","proved",[V+"C34_submit_general",V+"C34_ades",V+"C34_submitted_elements",V+"C34_converse_fails",V+"sampleDoc_valid"],"for every master file whose unions only shrink, whatever built-in types and facets mean; instance for adesmaster.xml")
c("C23","proved",[V+"C23_file",V+"C23_empty_block_repeats",V+"C23_nested_lost",V+"C23_residuals_fail",V+"psvDoc_lines"],"with the tables computed from adesmaster.xml; the exceptions to alignment are part of the statement")
c("C24","proved",[V+"C24_roundtrip",V+"C24_total",V+"psvDoc_expressible"],"with the tables computed from adesmaster.xml, whatever lxml accepts")
c("C30","proved",[V+"C30_round_trip",V+"C30_accepted",V+"C30_checked",V+"C30_injective",V+"precision_is_unit"],"all readings, by error analysis of the 53-bit roundings")
c("C31","proved",[V+"C31_round_trip",V+"C31_accepted",V+"C31_checked",V+"C31_sign"],"all readings and both signs, by error analysis of the 53-bit roundings")
c("C32","proved",[V+"C32_round_trip",V+"C32_injective",V+"C32_late",V+"C32_refused",V+"C32_no_such_day",V+"C32_radar",V+"C32_radar_coarse",V+"C32_carry",V+"C32_next_day",V+"C32_next_day_refused"],"all dates; the listed exceptions are theorems of their own")
c("C27","proved",[V+x for x in ["C27_columns","C27_time_and_designation","C27_optical","C27_radar_first","C27_radar_second","C27_satellite","C27_rover","C27_header","C27_header_only","C27_width"]],"all five kinds of data line and header lines")
c("C25","proved",[V+x for x in ["C25_every_line","C25_callback","C25_last_silent","Sample80.next_lost","Sample80.header_lost","Sample80.silent","Sample80.alone","Sample80.pair"]],"the exceptions named in the statement are theorems or concrete files")
c("C26","proved",[V+x for x in ["C26_matching","C26_satellite","C26_radar","C26_mismatch_stops","Sample80.not_adjacent","Sample80.other"]],"")
c("C28","proved",[V+x for x in ["C28_converted","C28_x_dropped","C28_no_altitude"]],"the code x and rover lines without altitude are the exceptions")
c("C37","proved",[V+x for x in ["C37_document","C37_no_headers","C37_headers_too_late","C37_file","Sample80.two_blocks","Sample80.nested","Sample80.part_ok"]],"")
c("C41","proved",[V+x for x in ["C41_blocks_end","Sample80.lost_block","Sample80.lost_lines"]],"a defect of the code, stated and proved")
c("C38","proved",[V+x for x in ["C38_observation","C38_file","C38_refused","Sample80.two_groups","Sample80.converted","Sample80.refused","Sample80.valid_group"]],"every valid optical observation of one or two lines, and whole files of them")
c("C39","proved",[V+x for x in ["C39_document","C39_file","C39_unchanged","C39_stable","C39_twice","C39_special","Sample80.back","Sample80.back_twice","Sample80.normal_group","Sample80.special_aborts"]],"references excluded by RefCols.Restorable are those C13 shows not to repack")
c("C35","proved",[V+x for x in ["C35_named","C35_from_stdin","C35_to_stdout","C35_pipe","C35_no_leftovers","C35_not_a_name","C35_stdin_once","C35_missing","C35_same_name_lost","C35_arguments","C35_text_input","C35_xml_input","C35_pipe_like_files","C35_psv_in_place","C35_mpc80_in_place","C35_xml_in_place","C35_mpc80_lost","SampleIO.to_file","SampleIO.to_pipe","SampleIO.failing"]],"for any converter and any state of the files; the real file system and encodings are not modelled")
c("C29","proved",[V+x for x in ["C29_widths","C29_long_station","SampleWidths.sample","SampleWidths.sample_lines","SampleWidths.C29_fine_dec","SampleWidths.C29_fine_time","SampleWidths.C29_early_year","SampleWidths.C29_radar_ref","SampleWidths.C29_radar_no_ref","SampleWidths.C29_radar_doppler"]],"the conditions of FitsOptical/FitsRadar that the schema does not give are necessary: each has a counterexample")
c("C42","proved",[V+x for x in ["C42_ra","C42_dec","C42_ra_reread","C42_dec_reread","C42_sixty_seconds","C42_sixty_minutes","C42_dec_sixty","C42_dec_tie"]],"the tie hypothesis of C42_dec is necessary (C42_dec_tie)")
c("C40","proved",[V+x for x in ["C40_document","C40_complete","C40_no_header","C40_unsupported","C40_occultation","C40_root","C40_empty_block_repeats","SampleWritten.C40_sample","SampleWritten.C40_sample_messages","SampleWritten.C40_sample_repeats"]],"")
c("C44","proved",[V+x for x in ["C44_line","C44_back","C44_mode_refused","C44_midnight","SampleSent.C44_sample","SampleSent.C44_tdi","SampleSent.C44_long_reference","SampleSent.space_in","SampleSent.space_writable","SampleSent.space_readable"]],"the conditions of Writable/Readable are those of C13, C32, C38 and C42; each has its counterexample there or here; a name of the observer's own beside a designation is allowed and not written")
c("C43","proved",[V+x for x in ["C43_observation","C43_file","C43_nosplit_lines","C43_split_lines","C43_split_covers","C43_stopped","C43_report","C43_split_clean","C43_split_column62","C43_blank_frequency","Sample80.radar_lines","Sample80.radar_values","Sample80.valid_radar","Sample80.valid_radarGroup"]],"")
c("C45","proved",[V+x for x in ["C45_document","C45_file","C45_date","C45_unchanged","C45_mixed","C45_no_reference","C45_misaligned","Sample80.restorable_radar","Sample80.normal_radar","Sample80.valid_radar2","Sample80.restorable_onlyRadar","Sample80.radar_back"]],"")
c("C46","proved",[V+x for x in ["C46_round","C46_unchanged","C46_same_json","C46_second_round","C46_json_back","C46_written_json","C46_roots","C46_one_root","C46_attribute_values","C46_missing","C46_not_canonical","C46_submit","C46_general","C46_files","C46_emptied","C46_same_name","SampleJson.C46_general_order","SampleJson.sample_wf","SampleJson.sorted_general","SampleJson.json_round"]],"The mapping of the package xmltodict (not in /repo) is modelled and trusted; what its releases do differently is left open.")
c("C47","proved",[V+x for x in ["C47_human","C47_report","C47_three","C47_validate","C47_unreadable","C47_bad_schema","C47_own_report","C47_stdin","C47_counts","C47_bom","C47_two_lines","SampleValidate.right","SampleValidate.sample_valid","SampleValidate.sample_others"]],"relative to a right validator (lxml is a parameter); the shipped master file is the one of the repository")
c("C48","proved",[V+x for x in ["C48_times","C48_refused","C48_samples"]],"")
c("C49","proved",[V+x for x in ["C49_fields","C49_general","C49_archive","C49_time","C49_observation"]],"values are characterised by the separate tables Spec.fieldValue and Spec.archiveValue; times for ASCII texts (the schema also takes other scripts' digits in leap seconds)")
c("C50","proved",[V+x for x in ["C50_psv","C50_bar","C50_mark","C50_points","C50_root"]],"types and facets with their meaning in XML Schema (Spec/SimpleTypes); lxml's validator is trusted to implement it")
c("C51","proved",[V+x for x in ["C51_line","C51_document","C51_radar","C51_times","C51_widths","C51_wide"]+["SampleSubmit80."+y for y in ["C51_sample","C51_mode","C51_275","C51_itrf","C51_year","C51_satellite","C51_wide_sample","good_valid","craft_valid","good_convertible","craft_convertible","good_narrow","wide_narrow","radar_valid"]]],"what is needed beyond validity is the structure Spec.Convertible (and Spec.Narrow for the widths); the SampleSubmit80 theorems are valid submissions that violate one condition and are not written, or not in 80 columns")
c("C52","proved",[V+x for x in ["C52_optical","C52_radar","C52_context","C52_file","C52_submission","C52_header_missing","C52_mixed","C52_both","C52_blank_frequency","C52_zero"]+["Sample80."+y for y in ["sound_valid","sound_sound","sound_file","submit_file"]]],"the conditions are the structures of Spec.Checked80 (Optical.Sound, Radar.Sound, HeadersSound, RecGroup.Sound); the others are files whose conversion is not valid, and concrete files that meet the hypotheses")
c("C53","proved",[V+x for x in ["C53_packs","C53_perm","C53_perm_refused","C53_prov","C53_prov_refused","C53_both","C53_tracklet","C53_tracklet_refused","C53_underscore","C53_valid_perm","C53_perm_without","C53_valid_prov","C53_prov_without","C53_stops","C53_stops_without"]],"C53_packs is the equivalence; the others give the exceptions and relate the grammar to the schema's; Spec.Packing shares with the model only the table of Unicode's decimal digits and the list of exceptions")
c("C54","proved",[V+x for x in ["C54_unpacks","C54_refused","C54_one","C54_fixed","C54_texts"]],"C54_unpacks is the equivalence with the grammar of Spec.Unpacking, which shares with the model only the table of Unicode's decimal digits; designations that exist are Designation.Valid of Spec.Designation")
c("C55","proved",[V+x for x in ["C55_report","C55_document_or_exception","C55_why","SampleReport.C55_conversion","SampleReport.C55_reading","SampleReport.C55_complete"]],"the messages of each line are the lists of Spec.Report80.Told; which of reading's messages a line gets is C25")
c("C56","proved",[V+x for x in ["C56_submission","C56_trip","SampleTrip80.C56_sample","SampleTrip80.C56_exchanged","SampleTrip80.C56_parted","SampleTrip80.C56_nameless"]],"the conditions beyond validity are Convertible (C51), Returnable and Sendable; those on the context have counterexamples among valid submissions")
c("C57","proved",[V+x for x in ["C57_fails","C57_either","C57_message","SamplePsvErrors.ways","SamplePsvErrors.raised_fails","SamplePsvErrors.second_mark_fails","SamplePsvErrors.lone_mark_fails"]],"an equivalence: the exception is e iff the file Fails with e, for every file; the samples use the tables of adesmaster.xml")
c("C58","proved",[V+x for x in ["C58_unpack","C58_unpack_fails","C58_pack_mpc","C58_pack_mps","C58_pack_other","C58_pack_fails","C58_both","C58_read_samples","C58_fail_samples","C58_both_samples"]],"equivalences for every text; the columns of negative page numbers are not described further than that they do not come back")
c("C59","proved",[V+x for x in ["C59_space","C59_digit","C59_decimal","C59_ascii","C59_apart"]],"explicit tables for Unicode 14 (CPython 3.11); the tables themselves are part of the trusted base")
c("C60","proved",[V+x for x in ["C60_ra","C60_ra_fails","C60_dec","C60_dec_fails","C60_date","C60_date_radar","SamplePositions.refused"]],"equivalences; the exception a refused date raises is not described")
c("C61","proved",[V+x for x in ["C61_optical","C61_refused","C61_no_such_day","C61_stops","SampleDecoded.decodes","SampleDecoded.observed"]],"optical, S and V lines; the second lines and radar lines have C26, C43 and C27")
c("C62","proved",[V+x for x in ["C62_satellite","C62_rover","C62_refused","C62_other","SampleSecond.decodes","SampleSecond.observed","SampleSecond.roved"]],"radar lines: see C43 and C60_date_radar")
c("C63","proved",[V+x for x in ["C63_first","C63_second","C63_refused","SampleRadarLines.decodes","SampleRadarLines.observed","SampleRadarLines.observed2","SampleRadarLines.tie","SampleRadarLines.last_half"]],"dates at exactly half a unit (RadarTie) are left open: there the rounding of the binary product decides")
json.dump({"claims":C},open('/verif/MANIFEST.json','w'),indent=1)

