{
 "claims": [
  {
   "property": "C01",
   "status": "proved",
   "theorems": [
    "Ikal.C01_unfold_folded",
    "Ikal.C01_unfold_folded_no_lf",
    "Ikal.C01_proviso_needed"
   ],
   "note": "Unfolding a folded line gives the line back, provided the line has no CR LF SP; the proviso is shown to be needed."
  },
  {
   "property": "C02",
   "status": "proved",
   "theorems": [
    "Ikal.C02_physical_lines_bounded",
    "Ikal.C02_limit_exceeded",
    "Ikal.C02_terminator_split"
   ],
   "note": "The bound is 76 octets for continuation lines; the RFC limit of 75 is refuted by C02_limit_exceeded."
  },
  {
   "property": "C03",
   "status": "proved",
   "theorems": [
    "Ikal.C03_panic_iff",
    "Ikal.C03_ascii_writes"
   ],
   "note": ""
  },
  {
   "property": "C04",
   "status": "proved",
   "theorems": [
    "Ikal.C04_written_text_is_escaped",
    "Ikal.C04_no_structural_characters"
   ],
   "note": ""
  },
  {
   "property": "C05",
   "status": "proved",
   "theorems": [
    "Ikal.C05_unescape_recovers",
    "Ikal.C05_injective",
    "Ikal.C05_not_injective",
    "Ikal.C05_unescape_fails"
   ],
   "note": ""
  },
  {
   "property": "C06",
   "status": "proved",
   "theorems": [
    "Ikal.C06_read_back",
    "Ikal.C06_survives_iff",
    "Ikal.C06_carriage_return_unreadable",
    "Ikal.C06_escaping_accumulates"
   ],
   "note": ""
  },
  {
   "property": "C07",
   "status": "proved",
   "theorems": [
    "Ikal.C07_content_line_grammar",
    "Ikal.C07_otherwise_error",
    "Ikal.C07_decomposition_unique"
   ],
   "note": ""
  },
  {
   "property": "C08",
   "status": "proved",
   "theorems": [
    "Ikal.C08_quoted_param",
    "Ikal.C08_quoted_param_line"
   ],
   "note": ""
  },
  {
   "property": "C09",
   "status": "proved",
   "theorems": [
    "Ikal.C09_unquoted_param",
    "Ikal.C09_swallows_next_line"
   ],
   "note": ""
  },
  {
   "property": "C10",
   "status": "proved",
   "theorems": [
    "Ikal.C10_last_param_wins",
    "Ikal.C10_quoted_params"
   ],
   "note": ""
  },
  {
   "property": "C11",
   "status": "proved",
   "theorems": [
    "Ikal.C11_block_total",
    "Ikal.C11_nothing_lost"
   ],
   "note": ""
  },
  {
   "property": "C12",
   "status": "proved",
   "theorems": [
    "Ikal.C12_delimiters",
    "Ikal.C12_block_ends_at_delimiter"
   ],
   "note": ""
  },
  {
   "property": "C13",
   "status": "proved",
   "theorems": [
    "Ikal.C13_Audio",
    "Ikal.C13_Display",
    "Ikal.C13_Email",
    "Ikal.C13_VEvent",
    "Ikal.C13_VFreebusy",
    "Ikal.C13_VJournal",
    "Ikal.C13_Standard",
    "Ikal.C13_Daylight",
    "Ikal.C13_VTimezone",
    "Ikal.C13_VTodo",
    "Ikal.C13_VCalendar",
    "Ikal.C14_VAlarm_iff"
   ],
   "note": ""
  },
  {
   "property": "C14",
   "status": "proved",
   "theorems": [
    "Ikal.C14_VAlarm_iff",
    "Ikal.C14_Audio",
    "Ikal.C14_Display",
    "Ikal.C14_Email",
    "Ikal.C14_VEvent",
    "Ikal.C14_VFreebusy",
    "Ikal.C14_VJournal",
    "Ikal.C14_Standard",
    "Ikal.C14_Daylight",
    "Ikal.C14_VTimezone",
    "Ikal.C14_VTodo",
    "Ikal.C14_VCalendar",
    "Ikal.C14_Audio_iff",
    "Ikal.C14_Display_iff",
    "Ikal.C14_Email_iff",
    "Ikal.C14_VEvent_iff",
    "Ikal.C14_VFreebusy_iff",
    "Ikal.C14_VJournal_iff",
    "Ikal.C14_Standard_iff",
    "Ikal.C14_Daylight_iff",
    "Ikal.C14_VTimezone_iff",
    "Ikal.C14_VTodo_iff",
    "Ikal.C14_VCalendar_iff"
   ],
   "note": "C14_X_iff is a complete characterisation (iff) of the conversion of property lines against the independent specification Spec/Components.lean; it also carries C13, C15, C16, C18."
  },
  {
   "property": "C15",
   "status": "proved",
   "theorems": [
    "Ikal.C15_VEvent_commas",
    "Ikal.C15_VTodo_commas",
    "Ikal.C15_VJournal_commas",
    "Ikal.C15_VFreebusy_commas",
    "Ikal.C15_Audio",
    "Ikal.C15_Email",
    "Ikal.C15_VEvent",
    "Ikal.C15_VFreebusy",
    "Ikal.C15_VJournal",
    "Ikal.C15_Standard",
    "Ikal.C15_Daylight",
    "Ikal.C15_VTodo",
    "Ikal.C14_Audio_iff",
    "Ikal.C14_Display_iff",
    "Ikal.C14_Email_iff",
    "Ikal.C14_VAlarm_iff",
    "Ikal.C14_VEvent_iff",
    "Ikal.C14_VFreebusy_iff",
    "Ikal.C14_VJournal_iff",
    "Ikal.C14_Standard_iff",
    "Ikal.C14_Daylight_iff",
    "Ikal.C14_VTimezone_iff",
    "Ikal.C14_VTodo_iff",
    "Ikal.C14_VCalendar_iff"
   ],
   "note": "IsPush/IsAppend clauses of the specification of each component."
  },
  {
   "property": "C16",
   "status": "proved",
   "theorems": [
    "Ikal.C16_Audio",
    "Ikal.C16_Display",
    "Ikal.C16_Email",
    "Ikal.C16_VEvent",
    "Ikal.C16_VFreebusy",
    "Ikal.C16_VJournal",
    "Ikal.C16_Standard",
    "Ikal.C16_Daylight",
    "Ikal.C16_VTimezone",
    "Ikal.C16_VTodo",
    "Ikal.C16_VCalendar",
    "Ikal.C14_Audio_iff",
    "Ikal.C14_Display_iff",
    "Ikal.C14_Email_iff",
    "Ikal.C14_VAlarm_iff",
    "Ikal.C14_VEvent_iff",
    "Ikal.C14_VFreebusy_iff",
    "Ikal.C14_VJournal_iff",
    "Ikal.C14_Standard_iff",
    "Ikal.C14_Daylight_iff",
    "Ikal.C14_VTimezone_iff",
    "Ikal.C14_VTodo_iff",
    "Ikal.C14_VCalendar_iff"
   ],
   "note": "IsExt clauses of the specification of each component."
  },
  {
   "property": "C17",
   "status": "proved",
   "theorems": [
    "Ikal.C17_Audio",
    "Ikal.C17_Display",
    "Ikal.C17_Email",
    "Ikal.C17_VEvent",
    "Ikal.C17_VFreebusy",
    "Ikal.C17_VJournal",
    "Ikal.C17_Standard",
    "Ikal.C17_Daylight",
    "Ikal.C17_VTimezone",
    "Ikal.C17_VTodo",
    "Ikal.C17_VCalendar"
   ],
   "note": ""
  },
  {
   "property": "C18",
   "status": "proved",
   "theorems": [
    "Ikal.C18_earlier_required_ignored",
    "Ikal.C18_Audio_earlier",
    "Ikal.C18_Display_earlier",
    "Ikal.C18_Email_earlier",
    "Ikal.C18_VEvent_earlier",
    "Ikal.C18_VFreebusy_earlier",
    "Ikal.C18_VJournal_earlier",
    "Ikal.C18_Standard_earlier",
    "Ikal.C18_Daylight_earlier",
    "Ikal.C18_VTimezone_earlier",
    "Ikal.C18_VTodo_earlier",
    "Ikal.C18_VCalendar_earlier",
    "Ikal.C18_Audio",
    "Ikal.C18_Display",
    "Ikal.C18_Email",
    "Ikal.C18_VEvent",
    "Ikal.C18_VFreebusy",
    "Ikal.C18_VJournal",
    "Ikal.C18_Standard",
    "Ikal.C18_Daylight",
    "Ikal.C18_VTimezone",
    "Ikal.C18_VTodo",
    "Ikal.C18_VCalendar"
   ],
   "note": "True for optional and repeatable properties and for the last line of required ones; refuted for earlier lines of required ones (C18_earlier_required_ignored). Statement amended in properties.jsonl."
  },
  {
   "property": "C19",
   "status": "proved",
   "theorems": [
    "Ikal.C19_VAlarm",
    "Ikal.C19_VEvent",
    "Ikal.C19_VTodo",
    "Ikal.C19_VJournal",
    "Ikal.C19_VFreebusy",
    "Ikal.C19_Standard",
    "Ikal.C19_Daylight",
    "Ikal.C19_VTimezone",
    "Ikal.C19_VCalendar",
    "Ikal.C19_none_lost",
    "Ikal.C19_unique"
   ],
   "note": "C19_X: parsing succeeds with v exactly when the text is that component (Spec/Document.lean)."
  },
  {
   "property": "C20",
   "status": "proved",
   "theorems": [
    "Ikal.C20_VCalendar",
    "Ikal.C20_VEvent",
    "Ikal.C20_VTodo",
    "Ikal.C20_VJournal",
    "Ikal.C20_VFreebusy",
    "Ikal.C20_VTimezone",
    "Ikal.C20_VAlarm",
    "Ikal.C20_Standard",
    "Ikal.C20_Daylight",
    "Ikal.C20_provisos_needed"
   ],
   "note": "With the provisos 'no leading space' and 'no double quote', both shown to be needed."
  },
  {
   "property": "C21",
   "status": "proved",
   "theorems": [
    "Ikal.C21_only_parser_error"
   ],
   "note": ""
  },
  {
   "property": "C22",
   "status": "proved",
   "theorems": [
    "Ikal.C22_duration",
    "Ikal.C22_trigger",
    "Ikal.C22_period",
    "Ikal.C22_lists",
    "Ikal.C22_others",
    "Ikal.C22_alarm",
    "Ikal.C22_texts",
    "Ikal.C22_rule_panics"
   ],
   "note": ""
  },
  {
   "property": "C23",
   "status": "proved",
   "theorems": [
    "Ikal.C23_status",
    "Ikal.C23_transparency",
    "Ikal.C23_freq",
    "Ikal.C23_round_trip"
   ],
   "note": ""
  },
  {
   "property": "C24",
   "status": "proved",
   "theorems": [
    "Ikal.C24_weekday",
    "Ikal.C24_otherwise_error"
   ],
   "note": ""
  },
  {
   "property": "C25",
   "status": "proved",
   "theorems": [
    "Ikal.C25_total",
    "Ikal.C25_read",
    "Ikal.C25_round_trip"
   ],
   "note": ""
  },
  {
   "property": "C26",
   "status": "proved",
   "theorems": [
    "Ikal.C26_priority",
    "Ikal.C26_too_large",
    "Ikal.C26_not_a_number"
   ],
   "note": ""
  },
  {
   "property": "C27",
   "status": "proved",
   "theorems": [
    "Ikal.C27_u8",
    "Ikal.C27_u32",
    "Ikal.C27_i8_list",
    "Ikal.C27_round_trip"
   ],
   "note": ""
  },
  {
   "property": "C28",
   "status": "proved",
   "theorems": [
    "Ikal.C28_round_trip",
    "Ikal.C28_grammar",
    "Ikal.C28_otherwise_error"
   ],
   "note": ""
  },
  {
   "property": "C29",
   "status": "proved",
   "theorems": [
    "Ikal.C29_round_trip"
   ],
   "note": ""
  },
  {
   "property": "C30",
   "status": "proved",
   "theorems": [
    "Ikal.C30_meaning",
    "Ikal.C30_last_value"
   ],
   "note": ""
  },
  {
   "property": "C31",
   "status": "proved",
   "theorems": [
    "Ikal.C31_round_trip",
    "Ikal.C31_fraction_lost"
   ],
   "note": "Whole-second durations; fractions of a second are refuted by C31_fraction_lost."
  },
  {
   "property": "C32",
   "status": "proved",
   "theorems": [
    "Ikal.C32_exact_sum",
    "Ikal.C32_only",
    "Ikal.C32_huge_number_ignored"
   ],
   "note": "Includes the converse (C32_only) and the silently ignored over-long number."
  },
  {
   "property": "C33",
   "status": "proved",
   "theorems": [
    "Ikal.C33_macro_value",
    "Ikal.C33_single_unit_agrees",
    "Ikal.C33_two_units_differ",
    "Ikal.C33_weeks_rejected",
    "Ikal.C33_complete"
   ],
   "note": "Statement amended: agreement for D,H,M,S; C33_macro_value gives the macro value for every sequence of units."
  },
  {
   "property": "C34",
   "status": "proved",
   "theorems": [
    "Ikal.C34_seconds_dropped",
    "Ikal.C34_round_trip"
   ],
   "note": "Offsets of whole minutes; C34_seconds_dropped gives the result for all offsets."
  },
  {
   "property": "C35",
   "status": "proved",
   "theorems": [
    "Ikal.C35_round_trip",
    "Ikal.C35_accepted_exists",
    "Ikal.C35_eight_digits",
    "Ikal.C35_other_years"
   ],
   "note": "Years 0 to 9999; C35_other_years shows the rest do not round trip."
  },
  {
   "property": "C36",
   "status": "proved",
   "theorems": [
    "Ikal.C36_read_back",
    "Ikal.C36_round_trip",
    "Ikal.C36_accepted_exists"
   ],
   "note": ""
  },
  {
   "property": "C37",
   "status": "proved",
   "theorems": [
    "Ikal.C37_shifted",
    "Ikal.C37_unchanged_iff",
    "Ikal.C37_from_str",
    "Ikal.C37_from_str_panics"
   ],
   "note": ""
  },
  {
   "property": "C38",
   "status": "proved",
   "theorems": [
    "Ikal.C38_start_end",
    "Ikal.C38_start_duration",
    "Ikal.C38_negative_rejected"
   ],
   "note": ""
  },
  {
   "property": "C39",
   "status": "proved",
   "theorems": [
    "Ikal.C39_elapsed",
    "Ikal.C39_panics",
    "Ikal.C39_given",
    "Ikal.C39_leap_second"
   ],
   "note": ""
  },
  {
   "property": "C40",
   "status": "proved",
   "theorems": [
    "Ikal.C40_wall_clock",
    "Ikal.C40_total_preorder",
    "Ikal.C40_naive_eq",
    "Ikal.C40_disagrees_with_eq"
   ],
   "note": ""
  },
  {
   "property": "C41",
   "status": "proved",
   "theorems": [
    "Ikal.C41_meaning",
    "Ikal.C41_strict_order",
    "Ikal.C41_homogeneous",
    "Ikal.C41_not_weak"
   ],
   "note": ""
  },
  {
   "property": "C42",
   "status": "proved",
   "theorems": [
    "Ikal.C42_by_duration",
    "Ikal.C42_total_preorder",
    "Ikal.C42_start_end",
    "Ikal.C42_start_duration",
    "Ikal.C42_opposite"
   ],
   "note": ""
  },
  {
   "property": "C43",
   "status": "proved",
   "theorems": [
    "Ikal.C43_Audio",
    "Ikal.C43_Display",
    "Ikal.C43_Email",
    "Ikal.C43_VTodo",
    "Ikal.C43_VJournal",
    "Ikal.C43_VFreebusy",
    "Ikal.C43_Standard",
    "Ikal.C43_Daylight",
    "Ikal.C43_VEvent",
    "Ikal.C43_VTimezone",
    "Ikal.C43_VCalendar",
    "Ikal.C43_VAlarm"
   ],
   "note": ""
  },
  {
   "property": "C44",
   "status": "proved",
   "theorems": [
    "Ikal.C44_absent",
    "Ikal.C44_empty_list",
    "Ikal.C44_empty_text",
    "Ikal.C44_written",
    "Ikal.C44_VEvent",
    "Ikal.C44_VFreebusy",
    "Ikal.C44_VJournal",
    "Ikal.C44_VTimezone",
    "Ikal.C44_VTodo",
    "Ikal.C44_VCalendar",
    "Ikal.C44_VEvent_read",
    "Ikal.C44_VFreebusy_read",
    "Ikal.C44_VJournal_read",
    "Ikal.C44_VTodo_read",
    "Ikal.C44_VTimezone_read",
    "Ikal.C44_VCalendar_read"
   ],
   "note": ""
  },
  {
   "property": "C45",
   "status": "proved",
   "theorems": [
    "Ikal.C45_VAlarm",
    "Ikal.C45_action_needed",
    "Ikal.C45_from_kind"
   ],
   "note": ""
  },
  {
   "property": "C46",
   "status": "proved",
   "theorems": [
    "Ikal.C46_VTodo",
    "Ikal.C46_VJournal",
    "Ikal.C46_VFreebusy",
    "Ikal.C46_Standard",
    "Ikal.C46_Daylight",
    "Ikal.C46_VEvent",
    "Ikal.C46_VTimezone",
    "Ikal.C46_VCalendar"
   ],
   "note": ""
  },
  {
   "property": "C47",
   "status": "proved",
   "theorems": [
    "Ikal.C47_VEvent",
    "Ikal.C47_VEvent_same",
    "Ikal.C47_VFreebusy",
    "Ikal.C47_VFreebusy_same",
    "Ikal.C47_VJournal",
    "Ikal.C47_VJournal_same",
    "Ikal.C47_Standard",
    "Ikal.C47_Standard_same",
    "Ikal.C47_Daylight",
    "Ikal.C47_Daylight_same",
    "Ikal.C47_VTodo",
    "Ikal.C47_VTodo_same",
    "Ikal.C47_VEvent_alarms",
    "Ikal.C47_VTimezone",
    "Ikal.C47_VTimezone_same",
    "Ikal.C47_VCalendar",
    "Ikal.C47_VCalendar_same"
   ],
   "note": ""
  },
  {
   "property": "C48",
   "status": "proved",
   "theorems": [
    "Ikal.C48_nothing",
    "Ikal.C48_components"
   ],
   "note": ""
  },
  {
   "property": "C49",
   "status": "proved",
   "theorems": [
    "Ikal.C49_first"
   ],
   "note": ""
  },
  {
   "property": "C50",
   "status": "proved",
   "theorems": [
    "Ikal.C50_event",
    "Ikal.C50_journal",
    "Ikal.C50_todo"
   ],
   "note": ""
  },
  {
   "property": "C51",
   "status": "proved",
   "theorems": [
    "Ikal.C51_at_most",
    "Ikal.C51_remaining",
    "Ikal.C51_exactly",
    "Ikal.C51_endless"
   ],
   "note": ""
  },
  {
   "property": "C52",
   "status": "proved",
   "theorems": [
    "Ikal.C52_until"
   ],
   "note": ""
  },
  {
   "property": "C53",
   "status": "proved",
   "theorems": [
    "Ikal.C53_excluded"
   ],
   "note": ""
  },
  {
   "property": "C54",
   "status": "proved",
   "theorems": [
    "Ikal.C54_progression",
    "Ikal.C54_ends",
    "Ikal.C54_end"
   ],
   "note": ""
  },
  {
   "property": "C55",
   "status": "proved",
   "theorems": [
    "Ikal.C55_lost"
   ],
   "note": ""
  },
  {
   "property": "C56",
   "status": "proved",
   "theorems": [
    "Ikal.C56_floating",
    "Ikal.C56_local",
    "Ikal.C56_leap_second",
    "Ikal.C56_daily",
    "Ikal.C56_weekly",
    "Ikal.C56_time_of_day"
   ],
   "note": ""
  },
  {
   "property": "C57",
   "status": "proved",
   "theorems": [
    "Ikal.C57_local_steps",
    "Ikal.C57_step",
    "Ikal.C57_clamped",
    "Ikal.C57_time",
    "Ikal.C57_local",
    "Ikal.C57_ambiguous_panics"
   ],
   "note": ""
  },
  {
   "property": "C58",
   "status": "proved",
   "theorems": [
    "Ikal.C58_step",
    "Ikal.C58_panics",
    "Ikal.C58_progression",
    "Ikal.C58_first_call_panics"
   ],
   "note": ""
  },
  {
   "property": "C59",
   "status": "proved",
   "theorems": [
    "Ikal.C59_leap_second",
    "Ikal.C59_floating",
    "Ikal.C59_local",
    "Ikal.C59_days",
    "Ikal.C59_monthly_varies"
   ],
   "note": ""
  },
  {
   "property": "C60",
   "status": "proved",
   "theorems": [
    "Ikal.C60_local",
    "Ikal.C60_local_calendar",
    "Ikal.C60_sub_daily",
    "Ikal.C60_increasing",
    "Ikal.C60_hourly_date",
    "Ikal.C60_clocks_go_back"
   ],
   "note": ""
  },
  {
   "property": "C61",
   "status": "proved",
   "theorems": [
    "Ikal.C61_local_calendar",
    "Ikal.C61_returns",
    "Ikal.C61_never_returns"
   ],
   "note": ""
  },
  {
   "property": "C62",
   "status": "proved",
   "theorems": [
    "Ikal.C62_fused",
    "Ikal.C62_again"
   ],
   "note": ""
  },
  {
   "property": "C63",
   "status": "proved",
   "theorems": [
    "Ikal.C63_hourly_date",
    "Ikal.C63_unordered",
    "Ikal.C63_between",
    "Ikal.C63_after",
    "Ikal.C63_after_prefix",
    "Ikal.C63_ends",
    "Ikal.C63_at_day",
    "Ikal.C63_at_date",
    "Ikal.C63_at_time",
    "Ikal.C63_increasing",
    "Ikal.C63_at"
   ],
   "note": ""
  },
  {
   "property": "C64",
   "status": "proved",
   "theorems": [
    "Ikal.C64_by_lists"
   ],
   "note": ""
  },
  {
   "property": "C65",
   "status": "proved",
   "theorems": [
    "Ikal.C65_becomes_datetime",
    "Ikal.C65_kinds"
   ],
   "note": ""
  },
  {
   "property": "C66",
   "status": "proved",
   "theorems": [
    "Ikal.C66_add_days",
    "Ikal.C66_sub_days",
    "Ikal.C66_tomorrow"
   ],
   "note": ""
  },
  {
   "property": "C67",
   "status": "proved",
   "theorems": [
    "Ikal.C67_VTimezone",
    "Ikal.C67_VTimezone_same",
    "Ikal.C67_VCalendar",
    "Ikal.C67_VCalendar_same"
   ],
   "note": ""
  },
  {
   "property": "C68",
   "status": "proved",
   "theorems": [
    "Ikal.C68_from_date",
    "Ikal.C68_midnight_first",
    "Ikal.C68_has_time",
    "Ikal.C68_to_local",
    "Ikal.C68_to_local_fails",
    "Ikal.C68_local_stays",
    "Ikal.C68_there_and_back",
    "Ikal.C68_add_floating",
    "Ikal.C68_add_local",
    "Ikal.C68_local_difference",
    "Ikal.C68_sub",
    "Ikal.C68_add_then_sub",
    "Ikal.C68_add_leap_second",
    "Ikal.C68_sub_leap_second",
    "Ikal.C68_difference_leap_second",
    "Ikal.C68_out_of_range",
    "Ikal.C68_difference",
    "Ikal.C68_date_add"
   ],
   "note": ""
  },
  {
   "property": "C69",
   "status": "proved",
   "theorems": [
    "Ikal.C69_date",
    "Ikal.C69_excluded_dates",
    "Ikal.C69_trigger",
    "Ikal.C69_recurrence_dates",
    "Ikal.C69_parameters_ignored"
   ],
   "note": ""
  },
  {
   "property": "C70",
   "status": "proved",
   "theorems": [
    "Ikal.C70_date",
    "Ikal.C70_date_grammar",
    "Ikal.C70_date_time_grammar",
    "Ikal.C70_date_time_from_str",
    "Ikal.C70_duration",
    "Ikal.C70_date_time_value",
    "Ikal.C70_date_value",
    "Ikal.C70_period",
    "Ikal.C70_trigger",
    "Ikal.C70_offset",
    "Ikal.C70_lists",
    "Ikal.C70_geo",
    "Ikal.C70_request_status"
   ],
   "note": ""
  },
  {
   "property": "C71",
   "status": "proved",
   "theorems": [
    "Ikal.C71_macro",
    "Ikal.C71_macro_unique",
    "Ikal.C71_unnamed",
    "Ikal.C71_named",
    "Ikal.C71_commas",
    "Ikal.C71_empty",
    "Ikal.C71_default",
    "Ikal.C71_unnamed_default",
    "Ikal.C71_grammar",
    "Ikal.C71_alarm_audio",
    "Ikal.C71_alarm_display",
    "Ikal.C71_alarm_email",
    "Ikal.C71_rule_interval"
   ],
   "note": ""
  },
  {
   "property": "C72",
   "status": "proved",
   "theorems": [
    "Ikal.C72_entries",
    "Ikal.C72_unknown",
    "Ikal.C72_shorthand",
    "Ikal.C72_text",
    "Ikal.C72_empty_list",
    "Ikal.C72_text_list",
    "Ikal.C72_no_rdate",
    "Ikal.C72_int",
    "Ikal.C72_int_list",
    "Ikal.C72_negative",
    "Ikal.C72_negative_list",
    "Ikal.C72_float",
    "Ikal.C72_negative_float",
    "Ikal.C72_variant",
    "Ikal.C72_custom",
    "Ikal.C72_own_type",
    "Ikal.C72_object",
    "Ikal.C72_object_list"
   ],
   "note": ""
  },
  {
   "property": "C73",
   "status": "proved",
   "theorems": [
    "Ikal.C73_fate",
    "Ikal.C73_endless",
    "Ikal.C73_until",
    "Ikal.C73_count",
    "Ikal.C73_between",
    "Ikal.C73_interval_zero"
   ],
   "note": ""
  },
  {
   "property": "C74",
   "status": "proved",
   "theorems": [
    "Ikal.C74_date",
    "Ikal.C74_dateTime",
    "Ikal.C74_duration",
    "Ikal.C74_offset",
    "Ikal.C74_numbers",
    "Ikal.C74_names",
    "Ikal.C74_weekdaynum",
    "Ikal.C74_structured",
    "Ikal.C74_rule"
   ],
   "note": ""
  },
  {
   "property": "C75",
   "status": "proved",
   "theorems": [
    "Ikal.C75_foldable",
    "Ikal.C75_Audio",
    "Ikal.C75_Display",
    "Ikal.C75_Email",
    "Ikal.C75_VAlarm",
    "Ikal.C75_VEvent",
    "Ikal.C75_VFreebusy",
    "Ikal.C75_VJournal",
    "Ikal.C75_Standard",
    "Ikal.C75_Daylight",
    "Ikal.C75_VTimezone",
    "Ikal.C75_VTodo",
    "Ikal.C75_VCalendar"
   ],
   "note": ""
  },
  {
   "property": "C76",
   "status": "proved",
   "theorems": [
    "Ikal.C76_unfolds",
    "Ikal.C76_VAlarm",
    "Ikal.C76_VEvent",
    "Ikal.C76_VTodo",
    "Ikal.C76_VJournal",
    "Ikal.C76_VFreebusy",
    "Ikal.C76_Standard",
    "Ikal.C76_Daylight",
    "Ikal.C76_VTimezone",
    "Ikal.C76_VCalendar"
   ],
   "note": ""
  },
  {
   "property": "C77",
   "status": "proved",
   "theorems": [
    "Ikal.C77_VAlarm",
    "Ikal.C77_VEvent",
    "Ikal.C77_VTodo",
    "Ikal.C77_VJournal",
    "Ikal.C77_VFreebusy",
    "Ikal.C77_Standard",
    "Ikal.C77_Daylight",
    "Ikal.C77_VTimezone",
    "Ikal.C77_VCalendar"
   ],
   "note": ""
  },
  {
   "property": "C78",
   "status": "proved",
   "theorems": [
    "Ikal.C78_VFreebusy",
    "Ikal.C78_VJournal",
    "Ikal.C78_Standard",
    "Ikal.C78_Daylight",
    "Ikal.C78_VTodo",
    "Ikal.C78_VEvent",
    "Ikal.C78_VTimezone",
    "Ikal.C78_VCalendar",
    "Ikal.C78_VAlarm_kind",
    "Ikal.C78_VAlarm",
    "Ikal.C78_VAlarm_any"
   ],
   "note": ""
  },
  {
   "property": "C79",
   "status": "proved",
   "theorems": [
    "Ikal.C79_between",
    "Ikal.C79_after",
    "Ikal.C79_between_panics",
    "Ikal.C79_after_panics",
    "Ikal.C79_between_comparable",
    "Ikal.C79_after_comparable",
    "Ikal.C79_between_panics_comparable",
    "Ikal.C79_after_panics_comparable",
    "Ikal.C79_on_calendar",
    "Ikal.C79_deterministic",
    "Ikal.C79_unique",
    "Ikal.C79_fused",
    "Ikal.C79_fate",
    "Ikal.C79_positive",
    "Ikal.C79_after_endless",
    "Ikal.C79_interval_zero",
    "Ikal.C79_at_local"
   ],
   "note": ""
  },
  {
   "property": "C80",
   "status": "proved",
   "theorems": [
    "Ikal.C80_VAlarm",
    "Ikal.C80_VEvent",
    "Ikal.C80_VTodo",
    "Ikal.C80_VJournal",
    "Ikal.C80_VFreebusy",
    "Ikal.C80_Standard",
    "Ikal.C80_Daylight",
    "Ikal.C80_VTimezone",
    "Ikal.C80_VCalendar",
    "Ikal.C80_VEvent_fate",
    "Ikal.C80_VEvent_increasing",
    "Ikal.C80_VTodo_fate",
    "Ikal.C80_VTodo_increasing",
    "Ikal.C80_VJournal_fate",
    "Ikal.C80_VJournal_increasing"
   ],
   "note": ""
  },
  {
   "property": "C81",
   "status": "proved",
   "theorems": [
    "Ikal.C81_VAlarm",
    "Ikal.C81_VEvent",
    "Ikal.C81_VTodo",
    "Ikal.C81_VJournal",
    "Ikal.C81_VFreebusy",
    "Ikal.C81_Standard",
    "Ikal.C81_Daylight",
    "Ikal.C81_VTimezone",
    "Ikal.C81_VCalendar"
   ],
   "note": ""
  },
  {
   "property": "C82",
   "status": "proved",
   "theorems": [
    "Ikal.C82_VAlarm",
    "Ikal.C82_VAlarm_read",
    "Ikal.C82_VEvent",
    "Ikal.C82_VEvent_read",
    "Ikal.C82_VTodo",
    "Ikal.C82_VTodo_read",
    "Ikal.C82_VJournal",
    "Ikal.C82_VJournal_read",
    "Ikal.C82_VFreebusy",
    "Ikal.C82_VFreebusy_read",
    "Ikal.C82_Standard",
    "Ikal.C82_Standard_read",
    "Ikal.C82_Daylight",
    "Ikal.C82_Daylight_read",
    "Ikal.C82_VTimezone",
    "Ikal.C82_VTimezone_read",
    "Ikal.C82_VCalendar",
    "Ikal.C82_VCalendar_read",
    "Ikal.C82_umlaut"
   ],
   "note": ""
  },
  {
   "property": "C83",
   "status": "proved",
   "theorems": [
    "Ikal.C83_yields",
    "Ikal.C83_none",
    "Ikal.C83_panics",
    "Ikal.C83_never_returns",
    "Ikal.C83_one",
    "Ikal.C83_only_one"
   ],
   "note": ""
  },
  {
   "property": "C84",
   "status": "proved",
   "theorems": [
    "Ikal.C84_concat",
    "Ikal.C84_one_reading",
    "Ikal.C84_same",
    "Ikal.C84_goes_on",
    "Ikal.C84_literal",
    "Ikal.C84_percent",
    "Ikal.C84_calendar_text",
    "Ikal.C84_shorthands",
    "Ikal.C84_numbers",
    "Ikal.C84_days_exist",
    "Ikal.C84_weeks_exist",
    "Ikal.C84_weekday",
    "Ikal.C84_month",
    "Ikal.C84_year",
    "Ikal.C84_iso_year",
    "Ikal.C84_noon",
    "Ikal.C84_fractions",
    "Ikal.C84_timestamp",
    "Ikal.C84_offset",
    "Ikal.C84_written_iff",
    "Ikal.C84_wall_clock"
   ],
   "note": ""
  },
  {
   "property": "C85",
   "status": "proved",
   "theorems": [
    "Ikal.C85_name",
    "Ikal.C85_names_differ",
    "Ikal.C85_kind",
    "Ikal.C85_code",
    "Ikal.C85_arms_differ",
    "Ikal.C85_members_Audio",
    "Ikal.C85_Audio",
    "Ikal.C85_members_Display",
    "Ikal.C85_Display",
    "Ikal.C85_members_Email",
    "Ikal.C85_Email",
    "Ikal.C85_members_VEvent",
    "Ikal.C85_VEvent",
    "Ikal.C85_members_VFreebusy",
    "Ikal.C85_VFreebusy",
    "Ikal.C85_members_VJournal",
    "Ikal.C85_VJournal",
    "Ikal.C85_members_Standard",
    "Ikal.C85_Standard",
    "Ikal.C85_members_Daylight",
    "Ikal.C85_Daylight",
    "Ikal.C85_members_VTimezone",
    "Ikal.C85_VTimezone",
    "Ikal.C85_members_VTodo",
    "Ikal.C85_VTodo",
    "Ikal.C85_members_VCalendar",
    "Ikal.C85_VCalendar",
    "Ikal.C85_members_Recur",
    "Ikal.C85_Recur"
   ],
   "note": ""
  },
  {
   "property": "C86",
   "status": "proved",
   "theorems": [
    "Ikal.C86_exact",
    "Ikal.C86_event",
    "Ikal.C86_todo",
    "Ikal.C86_journal",
    "Ikal.C86_freebusy",
    "Ikal.C86_calendar",
    "Ikal.C86_symm",
    "Ikal.C86_trans",
    "Ikal.C86_self",
    "Ikal.C86_iterate",
    "Ikal.C86_text"
   ],
   "note": ""
  },
  {
   "property": "C87",
   "status": "proved",
   "theorems": [
    "Ikal.C87_date",
    "Ikal.C87_floating",
    "Ikal.C87_local_fixed",
    "Ikal.C87_local_calendar",
    "Ikal.C87_agree",
    "Ikal.C87_date_panics"
   ],
   "note": ""
  },
  {
   "property": "C88",
   "status": "proved",
   "theorems": [
    "Ikal.C88_adjacent",
    "Ikal.C88_after",
    "Ikal.C88_within",
    "Ikal.C88_empty",
    "Ikal.C88_pages",
    "Ikal.C88_days",
    "Ikal.C88_mixed"
   ],
   "note": ""
  },
  {
   "property": "C89",
   "status": "proved",
   "theorems": [
    "Ikal.C89_parser",
    "Ikal.C89_dates",
    "Ikal.C89_quoted",
    "Ikal.C89_writing",
    "Ikal.C89_hidden",
    "Ikal.C89_inner",
    "Ikal.C89_passed_on"
   ],
   "note": ""
  },
  {
   "property": "C90",
   "status": "proved",
   "theorems": [
    "Ikal.C90_floating",
    "Ikal.C90_dates",
    "Ikal.C90_every",
    "Ikal.C90_every_week",
    "Ikal.C90_every_year",
    "Ikal.C90_weekdays",
    "Ikal.C90_frequencies",
    "Ikal.C90_end_of_month"
   ],
   "note": ""
  },
  {
   "property": "C91",
   "status": "proved",
   "theorems": [
    "Ikal.C91_reads",
    "Ikal.C91_vec",
    "Ikal.C91_writes",
    "Ikal.C91_Audio",
    "Ikal.C91_Audio_text",
    "Ikal.C91_Display",
    "Ikal.C91_Display_text",
    "Ikal.C91_Email",
    "Ikal.C91_Email_text",
    "Ikal.C91_VEvent",
    "Ikal.C91_VEvent_text",
    "Ikal.C91_VFreebusy",
    "Ikal.C91_VFreebusy_text",
    "Ikal.C91_VJournal",
    "Ikal.C91_VJournal_text",
    "Ikal.C91_Standard",
    "Ikal.C91_Standard_text",
    "Ikal.C91_Daylight",
    "Ikal.C91_Daylight_text",
    "Ikal.C91_VTimezone",
    "Ikal.C91_VTimezone_text",
    "Ikal.C91_VTodo",
    "Ikal.C91_VTodo_text",
    "Ikal.C91_VCalendar",
    "Ikal.C91_VCalendar_text"
   ],
   "note": ""
  },
  {
   "property": "C92",
   "status": "proved",
   "theorems": [
    "Ikal.C92_fails",
    "Ikal.C92_error",
    "Ikal.C92_Audio",
    "Ikal.C92_Display",
    "Ikal.C92_Email",
    "Ikal.C92_VEvent",
    "Ikal.C92_VFreebusy",
    "Ikal.C92_VJournal",
    "Ikal.C92_Standard",
    "Ikal.C92_Daylight",
    "Ikal.C92_VTimezone",
    "Ikal.C92_VTodo",
    "Ikal.C92_VCalendar",
    "Ikal.C92_VAlarm"
   ],
   "note": ""
  },
  {
   "property": "C93",
   "status": "proved",
   "theorems": [
    "Ikal.C93_set",
    "Ikal.C93_plain",
    "Ikal.C93_fit",
    "Ikal.C93_short_month",
    "Ikal.C93_missed"
   ],
   "note": ""
  },
  {
   "property": "C94",
   "status": "proved",
   "theorems": [
    "Ikal.C94_nearest",
    "Ikal.C94_read",
    "Ikal.C94_shown",
    "Ikal.C94_tenths",
    "Ikal.C94_special",
    "Ikal.C94_sane",
    "Ikal.C94_number",
    "Ikal.C94_good_position",
    "Ikal.C94_position",
    "Ikal.C94_position_lost",
    "Ikal.C94_six_digits",
    "Ikal.C94_four_decimals",
    "Ikal.C94_status",
    "Ikal.C94_code",
    "Ikal.C94_stable",
    "Ikal.C94_equal",
    "Ikal.C94_zeros"
   ],
   "note": ""
  },
  {
   "property": "C95",
   "status": "proved",
   "theorems": [
    "Ikal.C95_same",
    "Ikal.C95_VAlarm",
    "Ikal.C95_VTodo",
    "Ikal.C95_VJournal",
    "Ikal.C95_VFreebusy",
    "Ikal.C95_Standard",
    "Ikal.C95_Daylight",
    "Ikal.C95_VEvent",
    "Ikal.C95_VTimezone",
    "Ikal.C95_VCalendar",
    "Ikal.C95_first_unreadable",
    "Ikal.C95_own_properties",
    "Ikal.C95_event_properties",
    "Ikal.C95_positions",
    "Ikal.C95_message_tells",
    "Ikal.C95_message_one",
    "Ikal.C95_message_two",
    "Ikal.C95_message_char",
    "Ikal.C95_message_entries",
    "Ikal.C95_plain",
    "Ikal.C95_calendar_message",
    "Ikal.C95_said",
    "Ikal.C95_same_values",
    "Ikal.C95_Weekday",
    "Ikal.C95_WeekdayNum",
    "Ikal.C95_DateTime",
    "Ikal.C95_Date",
    "Ikal.C95_Duration",
    "Ikal.C95_Trigger",
    "Ikal.C95_Period",
    "Ikal.C95_Recur",
    "Ikal.C95_Geo",
    "Ikal.C95_RequestStatus"
   ],
   "note": ""
  },
  {
   "property": "C96",
   "status": "proved",
   "theorems": [
    "Ikal.C96_ContentLine",
    "Ikal.C96_Text",
    "Ikal.C96_Uri",
    "Ikal.C96_Class",
    "Ikal.C96_Status",
    "Ikal.C96_TimeTransparency",
    "Ikal.C96_TimeDelta",
    "Ikal.C96_WeekdayNum",
    "Ikal.C96_FixedOffset",
    "Ikal.C96_date",
    "Ikal.C96_time",
    "Ikal.C96_offset",
    "Ikal.C96_DateTime",
    "Ikal.C96_Date",
    "Ikal.C96_Trigger",
    "Ikal.C96_Period",
    "Ikal.C96_RDate",
    "Ikal.C96_Recur",
    "Ikal.C96_Geo",
    "Ikal.C96_RequestStatus",
    "Ikal.C96_VAlarm",
    "Ikal.C96_VEvent",
    "Ikal.C96_VTodo",
    "Ikal.C96_VJournal",
    "Ikal.C96_VFreebusy",
    "Ikal.C96_Standard",
    "Ikal.C96_Daylight",
    "Ikal.C96_VTimezone",
    "Ikal.C96_VCalendar",
    "Ikal.C96_one_line",
    "Ikal.C96_float",
    "Ikal.C96_float_special",
    "Ikal.C96_float_tells",
    "Ikal.C96_leap_second",
    "Ikal.C96_string",
    "Ikal.C96_option",
    "Ikal.C96_list",
    "Ikal.C96_map",
    "Ikal.C96_ContentLine_text",
    "Ikal.C96_Text_text",
    "Ikal.C96_Uri_text",
    "Ikal.C96_WeekdayNum_text",
    "Ikal.C96_Status_text",
    "Ikal.C96_TimeTransparency_text",
    "Ikal.C96_Freq_text",
    "Ikal.C96_Weekday_text",
    "Ikal.C96_Class_text",
    "Ikal.C96_TimeDelta_text",
    "Ikal.C96_Date_text",
    "Ikal.C96_Trigger_text",
    "Ikal.C96_RDate_text",
    "Ikal.C96_Period_text",
    "Ikal.C96_Recur_text",
    "Ikal.C96_Geo_text",
    "Ikal.C96_RequestStatus_text",
    "Ikal.C96_Audio_text",
    "Ikal.C96_Display_text",
    "Ikal.C96_Email_text",
    "Ikal.C96_VEvent_text",
    "Ikal.C96_VTodo_text",
    "Ikal.C96_VJournal_text",
    "Ikal.C96_VFreebusy_text",
    "Ikal.C96_Standard_text",
    "Ikal.C96_Daylight_text",
    "Ikal.C96_VTimezone_text",
    "Ikal.C96_VCalendar_text",
    "Ikal.C96_VAlarm_text",
    "Ikal.C96_quoted"
   ],
   "note": ""
  },
  {
   "property": "C97",
   "status": "proved",
   "theorems": [
    "Ikal.C97_integer",
    "Ikal.C97_integer_value",
    "Ikal.C97_integer_once",
    "Ikal.C97_date_time",
    "Ikal.C97_date",
    "Ikal.C97_no_such_day",
    "Ikal.C97_only_a_date",
    "Ikal.C97_no_such_day_utc",
    "Ikal.C97_after",
    "Ikal.C97_offset",
    "Ikal.C97_duration",
    "Ikal.C97_trigger",
    "Ikal.C97_local",
    "Ikal.C97_forget"
   ],
   "note": ""
  },
  {
   "property": "C98",
   "status": "proved",
   "theorems": [
    "Ikal.C98_debug",
    "Ikal.C98_one_line",
    "Ikal.C98_shown",
    "Ikal.C98_message",
    "Ikal.C98_source",
    "Ikal.C98_same",
    "Ikal.C98_readers",
    "Ikal.C98_parsers",
    "Ikal.C98_parser_message"
   ],
   "note": ""
  },
  {
   "property": "C99",
   "status": "proved",
   "theorems": [
    "Ikal.C99_line_read",
    "Ikal.C99_line",
    "Ikal.C99_line_refused",
    "Ikal.C99_line_cut",
    "Ikal.C99_unfold",
    "Ikal.C99_VAlarm",
    "Ikal.C99_VTodo",
    "Ikal.C99_VJournal",
    "Ikal.C99_VFreebusy",
    "Ikal.C99_Standard",
    "Ikal.C99_Daylight",
    "Ikal.C99_VEvent",
    "Ikal.C99_VTimezone",
    "Ikal.C99_VCalendar",
    "Ikal.C99_VAlarm_refused",
    "Ikal.C99_VTodo_refused",
    "Ikal.C99_VJournal_refused",
    "Ikal.C99_VFreebusy_refused",
    "Ikal.C99_Standard_refused",
    "Ikal.C99_Daylight_refused",
    "Ikal.C99_VEvent_refused",
    "Ikal.C99_VTimezone_refused",
    "Ikal.C99_VCalendar_refused",
    "Ikal.C99_VTodo_alarm",
    "Ikal.C99_VCalendar_unknown"
   ],
   "note": ""
  },
  {
   "property": "C100",
   "status": "proved",
   "theorems": [
    "Ikal.C100_VAlarm",
    "Ikal.C100_VEvent",
    "Ikal.C100_VTodo",
    "Ikal.C100_VJournal",
    "Ikal.C100_VFreebusy",
    "Ikal.C100_Standard",
    "Ikal.C100_Daylight",
    "Ikal.C100_VTimezone",
    "Ikal.C100_VCalendar",
    "Ikal.C100_floats",
    "Ikal.C100_ends",
    "Ikal.C100_is_rfc",
    "Ikal.C100_VEvent_only",
    "Ikal.C100_VTimezone_only",
    "Ikal.C100_VCalendar_only"
   ],
   "note": ""
  },
  {
   "property": "C101",
   "status": "proved",
   "theorems": [
    "Ikal.C101_VFreebusy",
    "Ikal.C101_VJournal",
    "Ikal.C101_Standard",
    "Ikal.C101_Daylight",
    "Ikal.C101_VTodo",
    "Ikal.C101_VEvent",
    "Ikal.C101_VTimezone",
    "Ikal.C101_VCalendar",
    "Ikal.C101_VAlarm",
    "Ikal.C101_VAlarm_any",
    "Ikal.C101_unchanged",
    "Ikal.C101_VTodo_good",
    "Ikal.C101_VJournal_good",
    "Ikal.C101_VFreebusy_good",
    "Ikal.C101_Standard_good",
    "Ikal.C101_Daylight_good",
    "Ikal.C101_VEvent_good",
    "Ikal.C101_VTimezone_good",
    "Ikal.C101_VCalendar_good",
    "Ikal.C101_VAlarm_good",
    "Ikal.C101_one_result",
    "Ikal.C101_length",
    "Ikal.C101_kept_iff",
    "Ikal.C101_ext_grows",
    "Ikal.C101_drift",
    "Ikal.C101_platform",
    "Ikal.C101_class",
    "Ikal.C101_class_ascii",
    "Ikal.C101_rdate",
    "Ikal.C101_VEvent_values",
    "Ikal.C101_VTodo_values",
    "Ikal.C101_VJournal_values",
    "Ikal.C101_Standard_values",
    "Ikal.C101_Daylight_values",
    "Ikal.C101_geo",
    "Ikal.C101_VEvent_geo",
    "Ikal.C101_VTodo_geo"
   ],
   "note": ""
  },
  {
   "property": "C102",
   "status": "proved",
   "theorems": [
    "Ikal.C102_read_VAlarm",
    "Ikal.C102_read_Standard",
    "Ikal.C102_read_Daylight",
    "Ikal.C102_read_VTimezone",
    "Ikal.C102_read_VEvent",
    "Ikal.C102_read_VTodo",
    "Ikal.C102_read_VJournal",
    "Ikal.C102_read_VFreebusy",
    "Ikal.C102_read_VCalendar",
    "Ikal.C102_write_DateTime",
    "Ikal.C102_write_Date",
    "Ikal.C102_write_Trigger",
    "Ikal.C102_write_Period",
    "Ikal.C102_write_Recur",
    "Ikal.C102_write_VAlarm",
    "Ikal.C102_write_Standard",
    "Ikal.C102_write_Daylight",
    "Ikal.C102_write_VTimezone",
    "Ikal.C102_write_VEvent",
    "Ikal.C102_write_VTodo",
    "Ikal.C102_write_VJournal",
    "Ikal.C102_write_VFreebusy",
    "Ikal.C102_write_VCalendar",
    "Ikal.C102_write_instant_iff",
    "Ikal.C102_cmp",
    "Ikal.C102_cmp_agree",
    "Ikal.C102_text_DateTime",
    "Ikal.C102_text_Date",
    "Ikal.C102_text_duration",
    "Ikal.C102_text_Trigger",
    "Ikal.C102_text_instant",
    "Ikal.C102_step",
    "Ikal.C102_next_VEvent",
    "Ikal.C102_range_VEvent",
    "Ikal.C102_next_VTodo",
    "Ikal.C102_range_VTodo",
    "Ikal.C102_next_VJournal",
    "Ikal.C102_range_VJournal"
   ],
   "note": ""
  },
  {
   "property": "C103",
   "status": "proved",
   "theorems": [
    "Ikal.C103_VAlarm",
    "Ikal.C103_VAlarm_all",
    "Ikal.C103_VFreebusy",
    "Ikal.C103_VFreebusy_all",
    "Ikal.C103_VTodo",
    "Ikal.C103_VTodo_all",
    "Ikal.C103_VJournal",
    "Ikal.C103_VJournal_all",
    "Ikal.C103_Standard",
    "Ikal.C103_Standard_all",
    "Ikal.C103_Daylight",
    "Ikal.C103_Daylight_all",
    "Ikal.C103_VEvent",
    "Ikal.C103_VEvent_all",
    "Ikal.C103_VTimezone",
    "Ikal.C103_VTimezone_all",
    "Ikal.C103_VCalendar",
    "Ikal.C103_VCalendar_all",
    "Ikal.C103_lines"
   ],
   "note": ""
  },
  {
   "property": "C104",
   "status": "proved",
   "theorems": [
    "Ikal.C104_VAlarm",
    "Ikal.C104_VAlarm_missing",
    "Ikal.C104_VEvent",
    "Ikal.C104_VEvent_missing",
    "Ikal.C104_VTodo",
    "Ikal.C104_VTodo_missing",
    "Ikal.C104_VJournal",
    "Ikal.C104_VJournal_missing",
    "Ikal.C104_VFreebusy",
    "Ikal.C104_VFreebusy_missing",
    "Ikal.C104_Standard",
    "Ikal.C104_Standard_missing",
    "Ikal.C104_Daylight",
    "Ikal.C104_Daylight_missing",
    "Ikal.C104_VTimezone",
    "Ikal.C104_VTimezone_missing",
    "Ikal.C104_VCalendar",
    "Ikal.C104_VCalendar_missing",
    "Ikal.C104_rfc_VAlarm",
    "Ikal.C104_rfc_VEvent",
    "Ikal.C104_rfc_VTodo",
    "Ikal.C104_rfc_VJournal",
    "Ikal.C104_rfc_VFreebusy",
    "Ikal.C104_rfc_Standard",
    "Ikal.C104_rfc_Daylight",
    "Ikal.C104_rfc_VTimezone",
    "Ikal.C104_rfc_VCalendar",
    "Ikal.C104_written_VAlarm",
    "Ikal.C104_written_VEvent",
    "Ikal.C104_written_VTodo",
    "Ikal.C104_written_VJournal",
    "Ikal.C104_written_VFreebusy",
    "Ikal.C104_written_Standard",
    "Ikal.C104_written_Daylight",
    "Ikal.C104_written_VTimezone",
    "Ikal.C104_written_VCalendar",
    "Ikal.C104_never_VAlarm",
    "Ikal.C104_never_VEvent",
    "Ikal.C104_never_VTodo",
    "Ikal.C104_never_VJournal",
    "Ikal.C104_never_VFreebusy",
    "Ikal.C104_never_Standard",
    "Ikal.C104_never_Daylight",
    "Ikal.C104_never_VTimezone",
    "Ikal.C104_never_VCalendar",
    "Ikal.C104_unfinished_VAlarm",
    "Ikal.C104_unfinished_VEvent",
    "Ikal.C104_unfinished_VTodo",
    "Ikal.C104_unfinished_VJournal",
    "Ikal.C104_unfinished_VFreebusy",
    "Ikal.C104_unfinished_Standard",
    "Ikal.C104_unfinished_Daylight",
    "Ikal.C104_unfinished_VTimezone",
    "Ikal.C104_unfinished_VCalendar",
    "Ikal.C104_quotes_needed",
    "Ikal.C104_fold_missing",
    "Ikal.C104_calendar_line_break",
    "Ikal.C104_overwritten"
   ],
   "note": ""
  },
  {
   "property": "C105",
   "status": "proved",
   "theorems": [
    "Ikal.C105_VAlarm",
    "Ikal.C105_VTodo",
    "Ikal.C105_VJournal",
    "Ikal.C105_VFreebusy",
    "Ikal.C105_Standard",
    "Ikal.C105_Daylight",
    "Ikal.C105_VTimezone",
    "Ikal.C105_VEvent",
    "Ikal.C105_VCalendar",
    "Ikal.C105_saves",
    "Ikal.C105_platform"
   ],
   "note": ""
  },
  {
   "property": "C106",
   "status": "proved",
   "theorems": [
    "Ikal.C106_VTodo_line",
    "Ikal.C106_VJournal_line",
    "Ikal.C106_VFreebusy_line",
    "Ikal.C106_Standard_line",
    "Ikal.C106_Daylight_line",
    "Ikal.C106_VEvent_line",
    "Ikal.C106_VTimezone_line",
    "Ikal.C106_VCalendar_line",
    "Ikal.C106_VAlarm_line",
    "Ikal.C106_only",
    "Ikal.C106_several",
    "Ikal.C106_VTodo_unknown",
    "Ikal.C106_VJournal_unknown",
    "Ikal.C106_VFreebusy_unknown",
    "Ikal.C106_Standard_unknown",
    "Ikal.C106_Daylight_unknown",
    "Ikal.C106_VEvent_unknown",
    "Ikal.C106_VTimezone_unknown",
    "Ikal.C106_VCalendar_unknown",
    "Ikal.C106_VAlarm_unknown",
    "Ikal.C106_VEvent_part",
    "Ikal.C106_VTimezone_part",
    "Ikal.C106_VCalendar_part",
    "Ikal.C106_VCalendar_events",
    "Ikal.C106_VCalendar_todo",
    "Ikal.C106_VCalendar_journals",
    "Ikal.C106_VCalendar_freebusy",
    "Ikal.C106_VCalendar_timezones",
    "Ikal.C106_VCalendar_alarms",
    "Ikal.C106_Audio_written",
    "Ikal.C106_Display_written",
    "Ikal.C106_Email_written",
    "Ikal.C106_VEvent_written",
    "Ikal.C106_VFreebusy_written",
    "Ikal.C106_VJournal_written",
    "Ikal.C106_Standard_written",
    "Ikal.C106_Daylight_written",
    "Ikal.C106_VTimezone_written",
    "Ikal.C106_VTodo_written",
    "Ikal.C106_VCalendar_written",
    "Ikal.C106_VAlarm_audio_written",
    "Ikal.C106_VAlarm_display_written",
    "Ikal.C106_VAlarm_email_written"
   ],
   "note": ""
  }
 ]
}