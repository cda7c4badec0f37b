{
 "claims": [
  {
   "property": "C01",
   "status": "proved",
   "theorems": [
    "Verif.designation_round_trip",
    "Verif.C01_number_round_trip",
    "Verif.C01_number_refused"
   ],
   "note": ""
  },
  {
   "property": "C02",
   "status": "proved",
   "theorems": [
    "Verif.C02_normal_round_trip"
   ],
   "note": ""
  },
  {
   "property": "C03",
   "status": "proved",
   "theorems": [
    "Verif.C03_extended_round_trip",
    "Verif.C03_extended_refused",
    "Verif.C03_century_lost"
   ],
   "note": "the non-invertibility outside 2025-2035 is C03_century_lost"
  },
  {
   "property": "C04",
   "status": "proved",
   "theorems": [
    "Verif.C04_survey_round_trip"
   ],
   "note": ""
  },
  {
   "property": "C05",
   "status": "proved",
   "theorems": [
    "Verif.C05_comet_round_trip",
    "Verif.designation_round_trip"
   ],
   "note": ""
  },
  {
   "property": "C06",
   "status": "proved",
   "theorems": [
    "Verif.C06_satellite_round_trip",
    "Verif.C06_satellite_zero_refused"
   ],
   "note": ""
  },
  {
   "property": "C07",
   "status": "proved",
   "theorems": [
    "Verif.C07_tracklet_round_trip",
    "Verif.C07_tracklet_eight",
    "Verif.C07_lookalike"
   ],
   "note": ""
  },
  {
   "property": "C08",
   "status": "proved",
   "theorems": [
    "Verif.C08_columns_injective",
    "Verif.C08_pack_injective"
   ],
   "note": ""
  },
  {
   "property": "C09",
   "status": "proved",
   "theorems": [
    "Verif.C09_twelve_columns"
   ],
   "note": "for every triple of arbitrary strings"
  },
  {
   "property": "C10",
   "status": "proved",
   "theorems": [
    "Verif.C10_unpack_only_RuntimeError",
    "Verif.C10_pack_errors",
    "Verif.C10_pack_no_provID",
    "Verif.C10_comet_late_year",
    "Verif.C10_extended_late_year",
    "Verif.C10_fragment_without_number"
   ],
   "note": "unpack: only RuntimeError, for every string; pack: the exact classes and the inputs that cause them, with families showing that they occur"
  },
  {
   "property": "C11",
   "status": "proved",
   "theorems": [
    "Verif.C11_contradiction_refused",
    "Verif.C11_comet_type_not_checked"
   ],
   "note": "the code does not compare orbit-type letters of comets: C11_comet_type_not_checked"
  },
  {
   "property": "C12",
   "status": "proved",
   "theorems": [
    "Verif.C12_decode_encode",
    "Verif.C12_encode_decode",
    "Verif.C12_order",
    "Verif.C12_wraps"
   ],
   "note": ""
  },
  {
   "property": "C13",
   "status": "proved",
   "theorems": [
    "Verif.C13_pack",
    "Verif.C13_unpack",
    "Verif.C13_round_trip",
    "Verif.C13_five_columns",
    "Verif.C13_mpc_broken",
    "Verif.C13_mpc_broken'",
    "Verif.C13_mps_broken",
    "Verif.C13_wraps",
    "Verif.C13_journal"
   ],
   "note": ""
  },
  {
   "property": "C14",
   "status": "proved",
   "theorems": [
    "Verif.C14_round_trip",
    "Verif.C14_injective",
    "Verif.C14_others_refused",
    "Verif.C14_read",
    "Verif.C14_read_refused",
    "Verif.C14_empty"
   ],
   "note": ""
  },
  {
   "property": "C15",
   "status": "proved",
   "theorems": [
    "Verif.C15_signed",
    "Verif.C15_unsigned",
    "Verif.C15_overflow"
   ],
   "note": "the documented refusal of numbers that do not fit does not exist: C15_overflow"
  },
  {
   "property": "C16",
   "status": "proved",
   "theorems": [
    "Verif.C16_catalogues",
    "Verif.C16_modes"
   ],
   "note": ""
  },
  {
   "property": "C17",
   "status": "proved",
   "theorems": [
    "Verif.C17_only_padding",
    "Verif.C17_strip",
    "Verif.C17_width",
    "Verif.C17_side",
    "Verif.C17_decimal",
    "Verif.C17_integer",
    "Verif.C17_decimal_errors"
   ],
   "note": ""
  },
  {
   "property": "C18",
   "status": "proved",
   "theorems": [
    "Verif.psv_meaning",
    "Verif.psv_call",
    "Verif.C18_rows",
    "Verif.C18_duplicate_column",
    "Verif.C18_too_many_cells",
    "Verif.row_cells"
   ],
   "note": "for every table set that satisfies Tab.WF and every line list"
  },
  {
   "property": "C19",
   "status": "proved",
   "theorems": [
    "Verif.C19_nesting",
    "Verif.psv_meaning"
   ],
   "note": ""
  },
  {
   "property": "C20",
   "status": "proved",
   "theorems": [
    "Verif.C20_every_line",
    "Verif.C20_unknown_line_refused",
    "Verif.psv_unambiguous"
   ],
   "note": ""
  },
  {
   "property": "C21",
   "status": "proved",
   "theorems": [
    "Verif.C21_second_call_fails"
   ],
   "note": "the English claim is false of the code: the second call in one process always fails on a file with two or more non-blank lines"
  },
  {
   "property": "C22",
   "status": "proved",
   "theorems": [
    "Verif.C22_line_ends",
    "Verif.C22_last_character_lost"
   ],
   "note": "both the true part and the defect"
  },
  {
   "property": "C36",
   "status": "proved",
   "theorems": [
    "Verif.C36_tree",
    "Verif.C36_top",
    "Verif.C36_events_determine",
    "Verif.C36_refused"
   ],
   "note": ""
  },
  {
   "property": "C33",
   "status": "proved",
   "theorems": [
    "Verif.C33_tables",
    "Verif.C33_order",
    "Verif.C33_required",
    "Verif.C33_exact",
    "Verif.C33_required_allowed",
    "Verif.C33_header",
    "Verif.C33_row",
    "Verif.C33_any_tables",
    "Verif.C33_psv_formats",
    "Verif.C33_sample",
    "Verif.adesTab_wf"
   ],
   "note": ""
  },
  {
   "property": "C34",
   "status": "proved",
   "theorems": [
    "Verif.C34_submit_general",
    "Verif.C34_ades",
    "Verif.C34_submitted_elements",
    "Verif.C34_converse_fails",
    "Verif.sampleDoc_valid"
   ],
   "note": "for every master file whose unions only shrink, whatever built-in types and facets mean; instance for adesmaster.xml"
  },
  {
   "property": "C23",
   "status": "proved",
   "theorems": [
    "Verif.C23_file",
    "Verif.C23_empty_block_repeats",
    "Verif.C23_nested_lost",
    "Verif.C23_residuals_fail",
    "Verif.psvDoc_lines"
   ],
   "note": "with the tables computed from adesmaster.xml; the exceptions to alignment are part of the statement"
  },
  {
   "property": "C24",
   "status": "proved",
   "theorems": [
    "Verif.C24_roundtrip",
    "Verif.C24_total",
    "Verif.psvDoc_expressible"
   ],
   "note": "with the tables computed from adesmaster.xml, whatever lxml accepts"
  },
  {
   "property": "C30",
   "status": "proved",
   "theorems": [
    "Verif.C30_round_trip",
    "Verif.C30_accepted",
    "Verif.C30_checked",
    "Verif.C30_injective",
    "Verif.precision_is_unit"
   ],
   "note": "all readings, by error analysis of the 53-bit roundings"
  },
  {
   "property": "C31",
   "status": "proved",
   "theorems": [
    "Verif.C31_round_trip",
    "Verif.C31_accepted",
    "Verif.C31_checked",
    "Verif.C31_sign"
   ],
   "note": "all readings and both signs, by error analysis of the 53-bit roundings"
  },
  {
   "property": "C32",
   "status": "proved",
   "theorems": [
    "Verif.C32_round_trip",
    "Verif.C32_injective",
    "Verif.C32_late",
    "Verif.C32_refused",
    "Verif.C32_no_such_day",
    "Verif.C32_radar",
    "Verif.C32_radar_coarse",
    "Verif.C32_carry",
    "Verif.C32_next_day",
    "Verif.C32_next_day_refused"
   ],
   "note": "all dates; the listed exceptions are theorems of their own"
  },
  {
   "property": "C27",
   "status": "proved",
   "theorems": [
    "Verif.C27_columns",
    "Verif.C27_time_and_designation",
    "Verif.C27_optical",
    "Verif.C27_radar_first",
    "Verif.C27_radar_second",
    "Verif.C27_satellite",
    "Verif.C27_rover",
    "Verif.C27_header",
    "Verif.C27_header_only",
    "Verif.C27_width"
   ],
   "note": "all five kinds of data line and header lines"
  },
  {
   "property": "C25",
   "status": "proved",
   "theorems": [
    "Verif.C25_every_line",
    "Verif.C25_callback",
    "Verif.C25_last_silent",
    "Verif.Sample80.next_lost",
    "Verif.Sample80.header_lost",
    "Verif.Sample80.silent",
    "Verif.Sample80.alone",
    "Verif.Sample80.pair"
   ],
   "note": "the exceptions named in the statement are theorems or concrete files"
  },
  {
   "property": "C26",
   "status": "proved",
   "theorems": [
    "Verif.C26_matching",
    "Verif.C26_satellite",
    "Verif.C26_radar",
    "Verif.C26_mismatch_stops",
    "Verif.Sample80.not_adjacent",
    "Verif.Sample80.other"
   ],
   "note": ""
  },
  {
   "property": "C28",
   "status": "proved",
   "theorems": [
    "Verif.C28_converted",
    "Verif.C28_x_dropped",
    "Verif.C28_no_altitude"
   ],
   "note": "the code x and rover lines without altitude are the exceptions"
  },
  {
   "property": "C37",
   "status": "proved",
   "theorems": [
    "Verif.C37_document",
    "Verif.C37_no_headers",
    "Verif.C37_headers_too_late",
    "Verif.C37_file",
    "Verif.Sample80.two_blocks",
    "Verif.Sample80.nested",
    "Verif.Sample80.part_ok"
   ],
   "note": ""
  },
  {
   "property": "C41",
   "status": "proved",
   "theorems": [
    "Verif.C41_blocks_end",
    "Verif.Sample80.lost_block",
    "Verif.Sample80.lost_lines"
   ],
   "note": "a defect of the code, stated and proved"
  },
  {
   "property": "C38",
   "status": "proved",
   "theorems": [
    "Verif.C38_observation",
    "Verif.C38_file",
    "Verif.C38_refused",
    "Verif.Sample80.two_groups",
    "Verif.Sample80.converted",
    "Verif.Sample80.refused",
    "Verif.Sample80.valid_group"
   ],
   "note": "every valid optical observation of one or two lines, and whole files of them"
  },
  {
   "property": "C39",
   "status": "proved",
   "theorems": [
    "Verif.C39_document",
    "Verif.C39_file",
    "Verif.C39_unchanged",
    "Verif.C39_stable",
    "Verif.C39_twice",
    "Verif.C39_special",
    "Verif.Sample80.back",
    "Verif.Sample80.back_twice",
    "Verif.Sample80.normal_group",
    "Verif.Sample80.special_aborts"
   ],
   "note": "references excluded by RefCols.Restorable are those C13 shows not to repack"
  },
  {
   "property": "C35",
   "status": "proved",
   "theorems": [
    "Verif.C35_named",
    "Verif.C35_from_stdin",
    "Verif.C35_to_stdout",
    "Verif.C35_pipe",
    "Verif.C35_no_leftovers",
    "Verif.C35_not_a_name",
    "Verif.C35_stdin_once",
    "Verif.C35_missing",
    "Verif.C35_same_name_lost",
    "Verif.C35_arguments",
    "Verif.C35_text_input",
    "Verif.C35_xml_input",
    "Verif.C35_pipe_like_files",
    "Verif.C35_psv_in_place",
    "Verif.C35_mpc80_in_place",
    "Verif.C35_xml_in_place",
    "Verif.C35_mpc80_lost",
    "Verif.SampleIO.to_file",
    "Verif.SampleIO.to_pipe",
    "Verif.SampleIO.failing"
   ],
   "note": "for any converter and any state of the files; the real file system and encodings are not modelled"
  },
  {
   "property": "C29",
   "status": "proved",
   "theorems": [
    "Verif.C29_widths",
    "Verif.C29_long_station",
    "Verif.SampleWidths.sample",
    "Verif.SampleWidths.sample_lines",
    "Verif.SampleWidths.C29_fine_dec",
    "Verif.SampleWidths.C29_fine_time",
    "Verif.SampleWidths.C29_early_year",
    "Verif.SampleWidths.C29_radar_ref",
    "Verif.SampleWidths.C29_radar_no_ref",
    "Verif.SampleWidths.C29_radar_doppler"
   ],
   "note": "the conditions of FitsOptical/FitsRadar that the schema does not give are necessary: each has a counterexample"
  },
  {
   "property": "C42",
   "status": "proved",
   "theorems": [
    "Verif.C42_ra",
    "Verif.C42_dec",
    "Verif.C42_ra_reread",
    "Verif.C42_dec_reread",
    "Verif.C42_sixty_seconds",
    "Verif.C42_sixty_minutes",
    "Verif.C42_dec_sixty",
    "Verif.C42_dec_tie"
   ],
   "note": "the tie hypothesis of C42_dec is necessary (C42_dec_tie)"
  },
  {
   "property": "C40",
   "status": "proved",
   "theorems": [
    "Verif.C40_document",
    "Verif.C40_complete",
    "Verif.C40_no_header",
    "Verif.C40_unsupported",
    "Verif.C40_occultation",
    "Verif.C40_root",
    "Verif.C40_empty_block_repeats",
    "Verif.SampleWritten.C40_sample",
    "Verif.SampleWritten.C40_sample_messages",
    "Verif.SampleWritten.C40_sample_repeats"
   ],
   "note": ""
  },
  {
   "property": "C44",
   "status": "proved",
   "theorems": [
    "Verif.C44_line",
    "Verif.C44_back",
    "Verif.C44_mode_refused",
    "Verif.C44_midnight",
    "Verif.SampleSent.C44_sample",
    "Verif.SampleSent.C44_tdi",
    "Verif.SampleSent.C44_long_reference",
    "Verif.SampleSent.space_in",
    "Verif.SampleSent.space_writable",
    "Verif.SampleSent.space_readable"
   ],
   "note": "the conditions of Writable/Readable are those of C13, C32, C38 and C42; each has its counterexample there or here; a name of the observer's own beside a designation is allowed and not written"
  },
  {
   "property": "C43",
   "status": "proved",
   "theorems": [
    "Verif.C43_observation",
    "Verif.C43_file",
    "Verif.C43_nosplit_lines",
    "Verif.C43_split_lines",
    "Verif.C43_split_covers",
    "Verif.C43_stopped",
    "Verif.C43_report",
    "Verif.C43_split_clean",
    "Verif.C43_split_column62",
    "Verif.C43_blank_frequency",
    "Verif.Sample80.radar_lines",
    "Verif.Sample80.radar_values",
    "Verif.Sample80.valid_radar",
    "Verif.Sample80.valid_radarGroup"
   ],
   "note": ""
  },
  {
   "property": "C45",
   "status": "proved",
   "theorems": [
    "Verif.C45_document",
    "Verif.C45_file",
    "Verif.C45_date",
    "Verif.C45_unchanged",
    "Verif.C45_mixed",
    "Verif.C45_no_reference",
    "Verif.C45_misaligned",
    "Verif.Sample80.restorable_radar",
    "Verif.Sample80.normal_radar",
    "Verif.Sample80.valid_radar2",
    "Verif.Sample80.restorable_onlyRadar",
    "Verif.Sample80.radar_back"
   ],
   "note": ""
  },
  {
   "property": "C46",
   "status": "proved",
   "theorems": [
    "Verif.C46_round",
    "Verif.C46_unchanged",
    "Verif.C46_same_json",
    "Verif.C46_second_round",
    "Verif.C46_json_back",
    "Verif.C46_written_json",
    "Verif.C46_roots",
    "Verif.C46_one_root",
    "Verif.C46_attribute_values",
    "Verif.C46_missing",
    "Verif.C46_not_canonical",
    "Verif.C46_submit",
    "Verif.C46_general",
    "Verif.C46_files",
    "Verif.C46_emptied",
    "Verif.C46_same_name",
    "Verif.SampleJson.C46_general_order",
    "Verif.SampleJson.sample_wf",
    "Verif.SampleJson.sorted_general",
    "Verif.SampleJson.json_round"
   ],
   "note": "The mapping of the package xmltodict (not in /repo) is modelled and trusted; what its releases do differently is left open."
  },
  {
   "property": "C47",
   "status": "proved",
   "theorems": [
    "Verif.C47_human",
    "Verif.C47_report",
    "Verif.C47_three",
    "Verif.C47_validate",
    "Verif.C47_unreadable",
    "Verif.C47_bad_schema",
    "Verif.C47_own_report",
    "Verif.C47_stdin",
    "Verif.C47_counts",
    "Verif.C47_bom",
    "Verif.C47_two_lines",
    "Verif.SampleValidate.right",
    "Verif.SampleValidate.sample_valid",
    "Verif.SampleValidate.sample_others"
   ],
   "note": "relative to a right validator (lxml is a parameter); the shipped master file is the one of the repository"
  },
  {
   "property": "C48",
   "status": "proved",
   "theorems": [
    "Verif.C48_times",
    "Verif.C48_refused",
    "Verif.C48_samples"
   ],
   "note": ""
  },
  {
   "property": "C49",
   "status": "proved",
   "theorems": [
    "Verif.C49_fields",
    "Verif.C49_general",
    "Verif.C49_archive",
    "Verif.C49_time",
    "Verif.C49_observation"
   ],
   "note": "values are characterised by the separate tables Spec.fieldValue and Spec.archiveValue; times for ASCII texts (the schema also takes other scripts' digits in leap seconds)"
  },
  {
   "property": "C50",
   "status": "proved",
   "theorems": [
    "Verif.C50_psv",
    "Verif.C50_bar",
    "Verif.C50_mark",
    "Verif.C50_points",
    "Verif.C50_root"
   ],
   "note": "types and facets with their meaning in XML Schema (Spec/SimpleTypes); lxml's validator is trusted to implement it"
  },
  {
   "property": "C51",
   "status": "proved",
   "theorems": [
    "Verif.C51_line",
    "Verif.C51_document",
    "Verif.C51_radar",
    "Verif.C51_times",
    "Verif.C51_widths",
    "Verif.C51_wide",
    "Verif.SampleSubmit80.C51_sample",
    "Verif.SampleSubmit80.C51_mode",
    "Verif.SampleSubmit80.C51_275",
    "Verif.SampleSubmit80.C51_itrf",
    "Verif.SampleSubmit80.C51_year",
    "Verif.SampleSubmit80.C51_satellite",
    "Verif.SampleSubmit80.C51_wide_sample",
    "Verif.SampleSubmit80.good_valid",
    "Verif.SampleSubmit80.craft_valid",
    "Verif.SampleSubmit80.good_convertible",
    "Verif.SampleSubmit80.craft_convertible",
    "Verif.SampleSubmit80.good_narrow",
    "Verif.SampleSubmit80.wide_narrow",
    "Verif.SampleSubmit80.radar_valid"
   ],
   "note": "what is needed beyond validity is the structure Spec.Convertible (and Spec.Narrow for the widths); the SampleSubmit80 theorems are valid submissions that violate one condition and are not written, or not in 80 columns"
  },
  {
   "property": "C52",
   "status": "proved",
   "theorems": [
    "Verif.C52_optical",
    "Verif.C52_radar",
    "Verif.C52_context",
    "Verif.C52_file",
    "Verif.C52_submission",
    "Verif.C52_header_missing",
    "Verif.C52_mixed",
    "Verif.C52_both",
    "Verif.C52_blank_frequency",
    "Verif.C52_zero",
    "Verif.Sample80.sound_valid",
    "Verif.Sample80.sound_sound",
    "Verif.Sample80.sound_file",
    "Verif.Sample80.submit_file"
   ],
   "note": "the conditions are the structures of Spec.Checked80 (Optical.Sound, Radar.Sound, HeadersSound, RecGroup.Sound); the others are files whose conversion is not valid, and concrete files that meet the hypotheses"
  },
  {
   "property": "C53",
   "status": "proved",
   "theorems": [
    "Verif.C53_packs",
    "Verif.C53_perm",
    "Verif.C53_perm_refused",
    "Verif.C53_prov",
    "Verif.C53_prov_refused",
    "Verif.C53_both",
    "Verif.C53_tracklet",
    "Verif.C53_tracklet_refused",
    "Verif.C53_underscore",
    "Verif.C53_valid_perm",
    "Verif.C53_perm_without",
    "Verif.C53_valid_prov",
    "Verif.C53_prov_without",
    "Verif.C53_stops",
    "Verif.C53_stops_without"
   ],
   "note": "C53_packs is the equivalence; the others give the exceptions and relate the grammar to the schema's; Spec.Packing shares with the model only the table of Unicode's decimal digits and the list of exceptions"
  },
  {
   "property": "C54",
   "status": "proved",
   "theorems": [
    "Verif.C54_unpacks",
    "Verif.C54_refused",
    "Verif.C54_one",
    "Verif.C54_fixed",
    "Verif.C54_texts"
   ],
   "note": "C54_unpacks is the equivalence with the grammar of Spec.Unpacking, which shares with the model only the table of Unicode's decimal digits; designations that exist are Designation.Valid of Spec.Designation"
  },
  {
   "property": "C55",
   "status": "proved",
   "theorems": [
    "Verif.C55_report",
    "Verif.C55_document_or_exception",
    "Verif.C55_why",
    "Verif.SampleReport.C55_conversion",
    "Verif.SampleReport.C55_reading",
    "Verif.SampleReport.C55_complete"
   ],
   "note": "the messages of each line are the lists of Spec.Report80.Told; which of reading's messages a line gets is C25"
  },
  {
   "property": "C56",
   "status": "proved",
   "theorems": [
    "Verif.C56_submission",
    "Verif.C56_trip",
    "Verif.SampleTrip80.C56_sample",
    "Verif.SampleTrip80.C56_exchanged",
    "Verif.SampleTrip80.C56_parted",
    "Verif.SampleTrip80.C56_nameless"
   ],
   "note": "the conditions beyond validity are Convertible (C51), Returnable and Sendable; those on the context have counterexamples among valid submissions"
  },
  {
   "property": "C57",
   "status": "proved",
   "theorems": [
    "Verif.C57_fails",
    "Verif.C57_either",
    "Verif.C57_message",
    "Verif.SamplePsvErrors.ways",
    "Verif.SamplePsvErrors.raised_fails",
    "Verif.SamplePsvErrors.second_mark_fails",
    "Verif.SamplePsvErrors.lone_mark_fails"
   ],
   "note": "an equivalence: the exception is e iff the file Fails with e, for every file; the samples use the tables of adesmaster.xml"
  },
  {
   "property": "C58",
   "status": "proved",
   "theorems": [
    "Verif.C58_unpack",
    "Verif.C58_unpack_fails",
    "Verif.C58_pack_mpc",
    "Verif.C58_pack_mps",
    "Verif.C58_pack_other",
    "Verif.C58_pack_fails",
    "Verif.C58_both",
    "Verif.C58_read_samples",
    "Verif.C58_fail_samples",
    "Verif.C58_both_samples"
   ],
   "note": "equivalences for every text; the columns of negative page numbers are not described further than that they do not come back"
  },
  {
   "property": "C59",
   "status": "proved",
   "theorems": [
    "Verif.C59_space",
    "Verif.C59_digit",
    "Verif.C59_decimal",
    "Verif.C59_ascii",
    "Verif.C59_apart"
   ],
   "note": "explicit tables for Unicode 14 (CPython 3.11); the tables themselves are part of the trusted base"
  },
  {
   "property": "C60",
   "status": "proved",
   "theorems": [
    "Verif.C60_ra",
    "Verif.C60_ra_fails",
    "Verif.C60_dec",
    "Verif.C60_dec_fails",
    "Verif.C60_date",
    "Verif.C60_date_radar",
    "Verif.SamplePositions.refused"
   ],
   "note": "equivalences; the exception a refused date raises is not described"
  },
  {
   "property": "C61",
   "status": "proved",
   "theorems": [
    "Verif.C61_optical",
    "Verif.C61_refused",
    "Verif.C61_no_such_day",
    "Verif.C61_stops",
    "Verif.SampleDecoded.decodes",
    "Verif.SampleDecoded.observed"
   ],
   "note": "optical, S and V lines; the second lines and radar lines have C26, C43 and C27"
  },
  {
   "property": "C62",
   "status": "proved",
   "theorems": [
    "Verif.C62_satellite",
    "Verif.C62_rover",
    "Verif.C62_refused",
    "Verif.C62_other",
    "Verif.SampleSecond.decodes",
    "Verif.SampleSecond.observed",
    "Verif.SampleSecond.roved"
   ],
   "note": "radar lines: see C43 and C60_date_radar"
  },
  {
   "property": "C63",
   "status": "proved",
   "theorems": [
    "Verif.C63_first",
    "Verif.C63_second",
    "Verif.C63_refused",
    "Verif.SampleRadarLines.decodes",
    "Verif.SampleRadarLines.observed",
    "Verif.SampleRadarLines.observed2",
    "Verif.SampleRadarLines.tie",
    "Verif.SampleRadarLines.last_half"
   ],
   "note": "dates at exactly half a unit (RadarTie) are left open: there the rounding of the binary product decides"
  }
 ]
}