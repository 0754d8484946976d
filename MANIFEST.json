{
 "claims": [
  {
   "property": "C01",
   "status": "proved",
   "theorems": [
    "TC.Props.c01_resolve_alias"
   ],
   "note": ""
  },
  {
   "property": "C02",
   "status": "proved",
   "theorems": [
    "TC.Props.c02_acyclic_history",
    "TC.Props.c02_alias_rejected_iff",
    "TC.Props.c02_default"
   ],
   "note": ""
  },
  {
   "property": "C03",
   "status": "proved",
   "theorems": [
    "TC.Props.c03_stable_identity"
   ],
   "note": ""
  },
  {
   "property": "C04",
   "status": "proved",
   "theorems": [
    "TC.Props.c04_alias_transparent"
   ],
   "note": ""
  },
  {
   "property": "C05",
   "status": "proved",
   "theorems": [
    "TC.Props.c05_register_calendar",
    "TC.Props.c05_register_calendar_type",
    "TC.Props.c05_register_calendar_alias"
   ],
   "note": ""
  },
  {
   "property": "C06",
   "status": "proved",
   "theorems": [
    "TC.Props.c06_register_calendar",
    "TC.Props.c06_register_calendar_type",
    "TC.Props.c06_register_calendar_alias",
    "TC.Props.c06_force_alias_no_collision"
   ],
   "note": ""
  },
  {
   "property": "C07",
   "status": "proved",
   "theorems": [
    "TC.Props.c07_deregister",
    "TC.Props.c07_clear"
   ],
   "note": ""
  },
  {
   "property": "C08",
   "status": "proved",
   "theorems": [
    "TC.Props.c08_get_implies_has",
    "TC.Props.c08_get_iff",
    "TC.Props.c08_dangling_alias"
   ],
   "note": "c08_dangling_alias exhibits the has/get gap for dangling aliases"
  },
  {
   "property": "C09",
   "status": "proved",
   "theorems": [
    "TC.Props.c09_names"
   ],
   "note": ""
  },
  {
   "property": "C10",
   "status": "proved",
   "theorems": [
    "TC.Props.c10_failed_calls",
    "TC.Props.c10_forced_cycle_loses_entry"
   ],
   "note": "c10_forced_cycle_loses_entry: a refused forced alias registration loses the old entry"
  },
  {
   "property": "C11",
   "status": "proved",
   "theorems": [
    "TC.Props.c11_default_names",
    "TC.Props.c11_disjoint_history"
   ],
   "note": ""
  },
  {
   "property": "C12",
   "status": "proved",
   "theorems": [
    "TC.Props.c12_next_open",
    "TC.Props.c12_next_close"
   ],
   "note": ""
  },
  {
   "property": "C13",
   "status": "proved",
   "theorems": [
    "TC.Props.c13_previous_open",
    "TC.Props.c13_previous_close"
   ],
   "note": ""
  },
  {
   "property": "C14",
   "status": "proved",
   "theorems": [
    "TC.Props.c14_next_previous_minute",
    "TC.Props.c14_inverse"
   ],
   "note": ""
  },
  {
   "property": "C15",
   "status": "proved",
   "theorems": [
    "TC.Props.c15_all_minutes"
   ],
   "note": ""
  },
  {
   "property": "C16",
   "status": "proved",
   "theorems": [
    "TC.Props.c16_is_open_on_minute"
   ],
   "note": ""
  },
  {
   "property": "C17",
   "status": "proved",
   "theorems": [
    "TC.Props.c17_open_iff_minute",
    "TC.Props.c17_no_breaks",
    "TC.Props.c17_break_start_minute"
   ],
   "note": "finding: the minute starting a break is in all_minutes but reported closed"
  },
  {
   "property": "C18",
   "status": "proved",
   "theorems": [
    "TC.Props.c18_next"
   ],
   "note": ""
  },
  {
   "property": "C19",
   "status": "proved",
   "theorems": [
    "TC.Props.c19_previous",
    "TC.Props.c19_none",
    "TC.Props.c19_invalid",
    "TC.Props.c19_previous_wraps"
   ],
   "note": "exact behaviour; finding: 'previous' before the first open answers with the last session"
  },
  {
   "property": "C20",
   "status": "proved",
   "theorems": [
    "TC.Props.c20_cache_transparent"
   ],
   "note": ""
  },
  {
   "property": "C21",
   "status": "proved",
   "theorems": [
    "TC.Props.c21_agrees",
    "TC.Props.c21_rejects"
   ],
   "note": ""
  },
  {
   "property": "C22",
   "status": "proved",
   "theorems": [
    "TC.Props.c22_minutes_for_session",
    "TC.Props.c22_partition"
   ],
   "note": ""
  },
  {
   "property": "C23",
   "status": "proved",
   "theorems": [
    "TC.Props.c23_minutes_in_range"
   ],
   "note": ""
  },
  {
   "property": "C24",
   "status": "proved",
   "theorems": [
    "TC.Props.c24_minutes_for_sessions"
   ],
   "note": ""
  },
  {
   "property": "C25",
   "status": "proved",
   "theorems": [
    "TC.Props.c25_minutes_count",
    "TC.Props.c25_no_breaks",
    "TC.Props.c25_break_undercounts"
   ],
   "note": "finding: one minute too few per session with a break"
  },
  {
   "property": "C26",
   "status": "proved",
   "theorems": [
    "TC.Props.c26_sessions_in_range"
   ],
   "note": ""
  },
  {
   "property": "C27",
   "status": "proved",
   "theorems": [
    "TC.Props.c27_sessions_window"
   ],
   "note": ""
  },
  {
   "property": "C28",
   "status": "proved",
   "theorems": [
    "TC.Props.c28_session_distance",
    "TC.Props.c28_window"
   ],
   "note": ""
  },
  {
   "property": "C29",
   "status": "proved",
   "theorems": [
    "TC.Props.c29_minutes_window",
    "TC.Props.c29_negative_overrun",
    "TC.Props.c29_negative_window_wraps"
   ],
   "note": "finding: negative windows longer than the history wrap around"
  },
  {
   "property": "C30",
   "status": "proved",
   "theorems": [
    "TC.Props.c30_step",
    "TC.Props.c30_nearest"
   ],
   "note": ""
  },
  {
   "property": "C31",
   "status": "proved",
   "theorems": [
    "TC.Props.c31_accessors",
    "TC.Props.c31_non_session"
   ],
   "note": ""
  },
  {
   "property": "C32",
   "status": "proved",
   "theorems": [
    "TC.Props.c32_execution_window",
    "TC.Props.c32_default",
    "TC.Props.c32_us_futures",
    "TC.Props.c32_sessions_in_range"
   ],
   "note": ""
  },
  {
   "property": "C33",
   "status": "proved",
   "theorems": [
    "TC.Props.c33_sessions",
    "TC.Props.c33_first_last",
    "TC.Props.c33_first_last_trading",
    "TC.Props.c33_empty_range"
   ],
   "note": "for midnight starts; a range without trading days raises ValueError"
  },
  {
   "property": "C34",
   "status": "proved",
   "theorems": [
    "TC.Props.c34_rows",
    "TC.Props.c34_standard_times",
    "TC.Props.c34_time_unique"
   ],
   "note": ""
  },
  {
   "property": "C35",
   "status": "proved",
   "theorems": [
    "TC.Props.c35_override",
    "TC.Props.c35_override_exact",
    "TC.Props.c35_special_is_session",
    "TC.Props.c35_not_a_session",
    "TC.Props.c35_dropped_on_end_date"
   ],
   "note": "finding: a special close on the (midnight) end date itself is dropped"
  },
  {
   "property": "C36",
   "status": "proved",
   "theorems": [
    "TC.Props.c36_breaks",
    "TC.Props.c34_standard_times"
   ],
   "note": ""
  },
  {
   "property": "C37",
   "status": "proved",
   "theorems": [
    "TC.Props.c37_days_at_time",
    "TC.Props.c37_raises",
    "TC.Props.c37_monotone"
   ],
   "note": "zones as arbitrary finite transition tables, transitions at least two days apart"
  },
  {
   "property": "C38",
   "status": "proved",
   "theorems": [
    "TC.Props.c38_regular",
    "TC.Props.c38_whole_minutes",
    "TC.Props.c38_succeeds"
   ],
   "note": ""
  },
  {
   "property": "C39",
   "status": "proved",
   "theorems": [
    "TC.Props.c39_always_open",
    "TC.Props.c39_weekdays"
   ],
   "note": ""
  },
  {
   "property": "C41",
   "status": "proved",
   "theorems": [
    "TC.Props.c41_lists"
   ],
   "note": ""
  },
  {
   "property": "C43",
   "status": "proved",
   "theorems": [
    "TC.Props.c43_rule_dates",
    "TC.Props.c43_calendar_dates",
    "TC.Props.c43_applies"
   ],
   "note": ""
  },
  {
   "property": "C49",
   "status": "proved",
   "theorems": [
    "TC.Props.c49_easter",
    "TC.Props.c49_holy_wednesday",
    "TC.Props.c49_maundy_thursday",
    "TC.Props.c49_good_friday",
    "TC.Props.c49_easter_monday",
    "TC.Props.c49_ascension_day",
    "TC.Props.c49_whit_monday",
    "TC.Props.c49_corpus_christi"
   ],
   "note": ""
  },
  {
   "property": "C50",
   "status": "proved",
   "theorems": [
    "TC.Props.c50_window"
   ],
   "note": "finding: no regular holidays before 1970 or after 2200"
  },
  {
   "property": "C53",
   "status": "proved",
   "theorems": [
    "TC.Props.c53_cache_transparent"
   ],
   "note": ""
  },
  {
   "property": "C44",
   "status": "proved",
   "theorems": [
    "TC.Props.c44_martin_luther_king",
    "TC.Props.c44_presidents_day",
    "TC.Props.c44_presidents_day_pandas",
    "TC.Props.c44_memorial_day",
    "TC.Props.c44_memorial_day_before_1964",
    "TC.Props.c44_memorial_day_1964_to_1969",
    "TC.Props.c44_labor_day",
    "TC.Props.c44_thanksgiving",
    "TC.Props.c44_thanksgiving_pandas",
    "TC.Props.c44_thanksgiving_before_1939",
    "TC.Props.c44_thanksgiving_1939_to_1941",
    "TC.Props.c44_election_day_before_1968",
    "TC.Props.c44_election_day_1968_to_1980",
    "TC.Props.c44_black_friday",
    "TC.Props.c44_black_friday_1992",
    "TC.Props.c44_nth_exists",
    "TC.Props.c44_last_exists"
   ],
   "note": "finding: no Memorial Day in 1970"
  },
  {
   "property": "C45",
   "status": "proved",
   "theorems": [
    "TC.Props.c45_nearest_workday",
    "TC.Props.c45_sunday_to_monday",
    "TC.Props.c45_previous_workday",
    "TC.Props.c45_observances",
    "TC.Props.c45_vectorized",
    "TC.Props.c45_new_year",
    "TC.Props.c45_christmas",
    "TC.Props.c45_christmas_once",
    "TC.Props.c45_independence_day"
   ],
   "note": ""
  },
  {
   "property": "C46",
   "status": "proved",
   "theorems": [
    "TC.Props.c46_early_closes",
    "TC.Props.c46_constructs",
    "TC.Props.c46_refuses_1945",
    "TC.Props.c46_refuses_1956"
   ],
   "note": "finding: XNYS cannot be constructed over 1945-12-24 or 1956-12-24"
  },
  {
   "property": "C47",
   "status": "proved",
   "theorems": [
    "TC.Props.c47_cmes",
    "TC.Props.c47_iepa",
    "TC.Props.c47_cmes_zone",
    "TC.Props.c47_iepa_zone",
    "TC.Props.c47_xcbf"
   ],
   "note": "c47_xcbf: the exact exception of XCBF"
  },
  {
   "property": "C48",
   "status": "proved",
   "theorems": [
    "TC.Props.c48_london_christmas",
    "TC.Props.c48_london_new_year",
    "TC.Props.c48_amsterdam_christmas"
   ],
   "note": ""
  },
  {
   "property": "C54",
   "status": "proved",
   "theorems": [
    "TC.Props.c54_asex",
    "TC.Props.c54_asex_zone",
    "TC.Props.c54_usFuturesCalendar",
    "TC.Props.c54_usFuturesCalendar_zone",
    "TC.Props.c54_xbog",
    "TC.Props.c54_xbog_zone",
    "TC.Props.c54_xbue",
    "TC.Props.c54_xbue_zone",
    "TC.Props.c54_xetr",
    "TC.Props.c54_xetr_zone",
    "TC.Props.c54_xice",
    "TC.Props.c54_xice_zone",
    "TC.Props.c54_xkar",
    "TC.Props.c54_xkar_zone",
    "TC.Props.c54_xlis",
    "TC.Props.c54_xlis_zone",
    "TC.Props.c54_xmil",
    "TC.Props.c54_xmil_zone",
    "TC.Props.c54_xosl",
    "TC.Props.c54_xosl_zone",
    "TC.Props.c54_xses",
    "TC.Props.c54_xses_zone",
    "TC.Props.c54_xswx",
    "TC.Props.c54_xswx_zone",
    "TC.Props.c54_xwar",
    "TC.Props.c54_xwar_zone",
    "TC.Props.c54_bvmf",
    "TC.Props.c54_bvmf_zone",
    "TC.Props.c54_xams",
    "TC.Props.c54_xams_zone",
    "TC.Props.c54_xbom",
    "TC.Props.c54_xbom_zone",
    "TC.Props.c54_xcbf",
    "TC.Props.c54_xcbf_zone",
    "TC.Props.c54_xfra",
    "TC.Props.c54_xfra_zone",
    "TC.Props.c54_xidx",
    "TC.Props.c54_xidx_zone",
    "TC.Props.c54_xkls",
    "TC.Props.c54_xkls_zone",
    "TC.Props.c54_xlon",
    "TC.Props.c54_xlon_zone",
    "TC.Props.c54_xmos",
    "TC.Props.c54_xmos_zone",
    "TC.Props.c54_xpar",
    "TC.Props.c54_xpar_zone",
    "TC.Props.c54_xsgo",
    "TC.Props.c54_xsgo_zone",
    "TC.Props.c54_xtai",
    "TC.Props.c54_xtai_zone",
    "TC.Props.c54_xwbo",
    "TC.Props.c54_xwbo_zone",
    "TC.Props.c54_cmes",
    "TC.Props.c54_cmes_zone",
    "TC.Props.c54_xasx",
    "TC.Props.c54_xasx_zone",
    "TC.Props.c54_xbru",
    "TC.Props.c54_xbru_zone",
    "TC.Props.c54_xcse",
    "TC.Props.c54_xcse_zone",
    "TC.Props.c54_xhel",
    "TC.Props.c54_xhel_zone",
    "TC.Props.c54_xist",
    "TC.Props.c54_xist_zone",
    "TC.Props.c54_xkrx",
    "TC.Props.c54_xkrx_zone",
    "TC.Props.c54_xmad",
    "TC.Props.c54_xmad_zone",
    "TC.Props.c54_xnys",
    "TC.Props.c54_xnys_zone",
    "TC.Props.c54_xphs",
    "TC.Props.c54_xphs_zone",
    "TC.Props.c54_xshg",
    "TC.Props.c54_xshg_zone",
    "TC.Props.c54_xtks",
    "TC.Props.c54_xtks_zone",
    "TC.Props.c54_iepa",
    "TC.Props.c54_iepa_zone",
    "TC.Props.c54_xbkk",
    "TC.Props.c54_xbkk_zone",
    "TC.Props.c54_xbud",
    "TC.Props.c54_xbud_zone",
    "TC.Props.c54_xdub",
    "TC.Props.c54_xdub_zone",
    "TC.Props.c54_xhkg",
    "TC.Props.c54_xhkg_zone",
    "TC.Props.c54_xjse",
    "TC.Props.c54_xjse_zone",
    "TC.Props.c54_xlim",
    "TC.Props.c54_xlim_zone",
    "TC.Props.c54_xmex",
    "TC.Props.c54_xmex_zone",
    "TC.Props.c54_xnze",
    "TC.Props.c54_xnze_zone",
    "TC.Props.c54_xpra",
    "TC.Props.c54_xpra_zone",
    "TC.Props.c54_xsto",
    "TC.Props.c54_xsto_zone",
    "TC.Props.c54_xtse",
    "TC.Props.c54_xtse_zone",
    "TC.Props.c54_xtae",
    "TC.Props.c54_xtae_zone"
   ],
   "note": ""
  },
  {
   "property": "C55",
   "status": "proved",
   "theorems": [
    "TC.Props.c55_new_york",
    "TC.Props.c55_new_york_early",
    "TC.Props.c55_london",
    "TC.Props.c55_london_early",
    "TC.Props.c55_amsterdam",
    "TC.Props.c55_chicago",
    "TC.Props.c55_ice_us",
    "TC.Props.c55_tel_aviv"
   ],
   "note": ""
  },
  {
   "property": "C42",
   "status": "proved",
   "theorems": [
    "TC.Props.c42_once",
    "TC.Props.c42_same_value",
    "TC.Props.c42_value_is_computed",
    "TC.Props.c42_raising_not_cached",
    "TC.Props.c42_assign",
    "TC.Props.c42_delete",
    "TC.Props.c42_other_instances",
    "TC.Props.c42_reentrant"
   ],
   "note": "Instances, the cache, assignment and deletion are a state machine; getters may read other lazy attributes of any instance. c42_reentrant records what happens when a getter re-enters itself: both runs succeed and the later result replaces the first."
  },
  {
   "property": "C51",
   "status": "proved",
   "theorems": [
    "TC.Props.c51_render_month",
    "TC.Props.c51_bad_month",
    "TC.Props.c51_render_year"
   ],
   "note": "Character-exact: MonthGrid fixes every column of every row. c51_render_year composes it with C52. A month starting on a Sunday has an empty first row."
  },
  {
   "property": "C52",
   "status": "proved",
   "theorems": [
    "TC.Props.c52_concat_lines",
    "TC.Props.c52_empty"
   ],
   "note": "For any non-empty list of blocks of lines that fit the width; the empty list raises ValueError."
  },
  {
   "property": "C40",
   "status": "proved",
   "theorems": [
    "TC.Props.c40_exact",
    "TC.Props.c40_refuses",
    "TC.Props.c40_default",
    "TC.Props.c40_no_records",
    "TC.Props.c40_xkrx",
    "TC.Props.c40_xbom",
    "TC.Props.c40_xses",
    "TC.Props.c40_xshg",
    "TC.Props.c40_xhkg",
    "TC.Props.c40_xhkg_years"
   ],
   "note": "c40_exact is an equivalence for any class with precomputed holidays and any bounds; c40_xkrx, c40_xbom, c40_xses, c40_xshg, c40_xhkg for the classes of the repository."
  },
  {
   "property": "C56",
   "status": "proved",
   "theorems": [
    "TC.Props.c56_hebrew_year",
    "TC.Props.c56_spring",
    "TC.Props.c56_autumn",
    "TC.Props.c56_unique",
    "TC.Props.c56_weekdays",
    "TC.Props.c56_year_length"
   ],
   "note": "The arithmetic of pyluach 1.2.1 is modelled from its published source (the package is not installed here)."
  },
  {
   "property": "C57",
   "status": "proved",
   "theorems": [
    "TC.Props.c57_memorial_day",
    "TC.Props.c57_memorial_day_saturday",
    "TC.Props.c57_memorial_day_law",
    "TC.Props.c57_fast_day"
   ],
   "note": "c57_memorial_day_law records that the calendar departs from Israeli law when the 4th of Iyar is a Sunday (2024)."
  },
  {
   "property": "C58",
   "status": "proved",
   "theorems": [
    "TC.Props.c58_names",
    "TC.Props.c58_constructs",
    "TC.Props.c58_xkls_fails",
    "TC.Props.c58_xist_fails",
    "TC.Props.c58_xhkg_fails",
    "TC.Props.c58_get_calendar",
    "TC.Props.c58_get_calendar_offers"
   ],
   "note": "Between 2029-02-13 00:00 and 04:30 UTC as end of the range (likewise XIST on 2029-04-23, XHKG on 2050-01-01 and 02) neither success nor failure is claimed. The model has no upper bound of pandas timestamps (2262)."
  },
  {
   "property": "C59",
   "status": "proved",
   "theorems": [
    "TC.Props.c59_orthodoxEaster",
    "TC.Props.c59_asex",
    "TC.Props.c59_xcbf",
    "TC.Props.c59_bvmf",
    "TC.Props.c59_usFuturesCalendar",
    "TC.Props.c59_xasx",
    "TC.Props.c59_xbkk",
    "TC.Props.c59_xbog",
    "TC.Props.c59_xbom",
    "TC.Props.c59_xbru",
    "TC.Props.c59_xbud",
    "TC.Props.c59_xbue",
    "TC.Props.c59_xcse",
    "TC.Props.c59_xdub",
    "TC.Props.c59_xetr",
    "TC.Props.c59_xfra",
    "TC.Props.c59_xhel",
    "TC.Props.c59_xhkg",
    "TC.Props.c59_xice",
    "TC.Props.c59_xidx",
    "TC.Props.c59_xist",
    "TC.Props.c59_xjse",
    "TC.Props.c59_xkar",
    "TC.Props.c59_xkls",
    "TC.Props.c59_xkrx",
    "TC.Props.c59_xlim",
    "TC.Props.c59_xlis",
    "TC.Props.c59_xmad",
    "TC.Props.c59_xmex",
    "TC.Props.c59_xmil",
    "TC.Props.c59_xmos",
    "TC.Props.c59_xnze",
    "TC.Props.c59_xosl",
    "TC.Props.c59_xpar",
    "TC.Props.c59_xphs",
    "TC.Props.c59_xpra",
    "TC.Props.c59_xses",
    "TC.Props.c59_xsgo",
    "TC.Props.c59_xshg",
    "TC.Props.c59_xsto",
    "TC.Props.c59_xswx",
    "TC.Props.c59_xtai",
    "TC.Props.c59_xtks",
    "TC.Props.c59_xtse",
    "TC.Props.c59_xwar",
    "TC.Props.c59_xwbo"
   ],
   "note": "The lists are in Spec/BookList.lean, Spec/Feasts.lean and Spec/FeastDates.lean. The dates of lunar feasts and single closures are data extracted from the sources a second time, independently of the model."
  },
  {
   "property": "C60",
   "status": "proved",
   "theorems": [
    "TC.Props.c60_cmes",
    "TC.Props.c60_iepa",
    "TC.Props.c60_xams",
    "TC.Props.c60_xasx",
    "TC.Props.c60_xbru",
    "TC.Props.c60_xbue",
    "TC.Props.c60_xcbf",
    "TC.Props.c60_xdub",
    "TC.Props.c60_xetr",
    "TC.Props.c60_xfra",
    "TC.Props.c60_xhkg",
    "TC.Props.c60_xist",
    "TC.Props.c60_xkls",
    "TC.Props.c60_xlis",
    "TC.Props.c60_xlon",
    "TC.Props.c60_xmad",
    "TC.Props.c60_xnys",
    "TC.Props.c60_xnze",
    "TC.Props.c60_xosl",
    "TC.Props.c60_xpar",
    "TC.Props.c60_xsgo",
    "TC.Props.c60_xsto",
    "TC.Props.c60_xtse"
   ],
   "note": "The lists are in Spec/Hours.lean and Spec/Feasts.lean."
  },
  {
   "property": "C61",
   "status": "proved",
   "theorems": [
    "TC.Props.c61_asex",
    "TC.Props.c61_bvmf",
    "TC.Props.c61_cmes",
    "TC.Props.c61_iepa",
    "TC.Props.c61_usFuturesCalendar",
    "TC.Props.c61_xams",
    "TC.Props.c61_xasx",
    "TC.Props.c61_xbkk",
    "TC.Props.c61_xbog",
    "TC.Props.c61_xbom",
    "TC.Props.c61_xbru",
    "TC.Props.c61_xbud",
    "TC.Props.c61_xbue",
    "TC.Props.c61_xcbf",
    "TC.Props.c61_xcse",
    "TC.Props.c61_xdub",
    "TC.Props.c61_xetr",
    "TC.Props.c61_xfra",
    "TC.Props.c61_xhel",
    "TC.Props.c61_xhkg",
    "TC.Props.c61_xice",
    "TC.Props.c61_xidx",
    "TC.Props.c61_xist",
    "TC.Props.c61_xjse",
    "TC.Props.c61_xkar",
    "TC.Props.c61_xkls",
    "TC.Props.c61_xkrx",
    "TC.Props.c61_xlim",
    "TC.Props.c61_xlis",
    "TC.Props.c61_xlon",
    "TC.Props.c61_xmad",
    "TC.Props.c61_xmex",
    "TC.Props.c61_xmil",
    "TC.Props.c61_xmos",
    "TC.Props.c61_xnys",
    "TC.Props.c61_xnze",
    "TC.Props.c61_xosl",
    "TC.Props.c61_xpar",
    "TC.Props.c61_xphs",
    "TC.Props.c61_xpra",
    "TC.Props.c61_xses",
    "TC.Props.c61_xsgo",
    "TC.Props.c61_xshg",
    "TC.Props.c61_xsto",
    "TC.Props.c61_xswx",
    "TC.Props.c61_xtae",
    "TC.Props.c61_xtai",
    "TC.Props.c61_xtks",
    "TC.Props.c61_xtse",
    "TC.Props.c61_xwar",
    "TC.Props.c61_xwbo"
   ],
   "note": "The timetables are in Spec/Hours.lean. For XNYS, XKLS and XIST ranges containing one of the listed days that are both closure and early close are excepted (C54)."
  },
  {
   "property": "C62",
   "status": "proved",
   "theorems": [
    "TC.Props.c62_int",
    "TC.Props.c62_usage",
    "TC.Props.c62_prints",
    "TC.Props.c62_only",
    "TC.Props.c62_no_calendar",
    "TC.Props.c62_no_period",
    "TC.Props.c62_bad_month",
    "TC.Props.c62_default"
   ],
   "note": "str() of exceptions, repr() of strings, the current date and the decimal values of non-ASCII digits are parameters. Instances of int() limits on more than 4300 digits are not modelled."
  },
  {
   "property": "C63",
   "status": "proved",
   "theorems": [
    "TC.Props.c63_ahead_unique",
    "TC.Props.c63_clock_africaJohannesburg",
    "TC.Props.c63_clock_americaArgentinaBuenosAires",
    "TC.Props.c63_clock_americaChicago",
    "TC.Props.c63_clock_americaLima",
    "TC.Props.c63_clock_americaMexicoCity",
    "TC.Props.c63_clock_americaNewYork",
    "TC.Props.c63_clock_americaSantiago",
    "TC.Props.c63_clock_americaSaoPaulo",
    "TC.Props.c63_clock_americaToronto",
    "TC.Props.c63_clock_asiaBangkok",
    "TC.Props.c63_clock_asiaCalcutta",
    "TC.Props.c63_clock_asiaHongKong",
    "TC.Props.c63_clock_asiaJakarta",
    "TC.Props.c63_clock_asiaKarachi",
    "TC.Props.c63_clock_asiaKualaLumpur",
    "TC.Props.c63_clock_asiaManila",
    "TC.Props.c63_clock_asiaSeoul",
    "TC.Props.c63_clock_asiaShanghai",
    "TC.Props.c63_clock_asiaSingapore",
    "TC.Props.c63_clock_asiaTaipei",
    "TC.Props.c63_clock_asiaTelAviv",
    "TC.Props.c63_clock_asiaTokyo",
    "TC.Props.c63_clock_atlanticReykjavik",
    "TC.Props.c63_clock_australiaSydney",
    "TC.Props.c63_clock_cet",
    "TC.Props.c63_clock_europeAmsterdam",
    "TC.Props.c63_clock_europeAthens",
    "TC.Props.c63_clock_europeBrussels",
    "TC.Props.c63_clock_europeBudapest",
    "TC.Props.c63_clock_europeCopenhagen",
    "TC.Props.c63_clock_europeDublin",
    "TC.Props.c63_clock_europeHelsinki",
    "TC.Props.c63_clock_europeIstanbul",
    "TC.Props.c63_clock_europeLisbon",
    "TC.Props.c63_clock_europeLondon",
    "TC.Props.c63_clock_europeMadrid",
    "TC.Props.c63_clock_europeMoscow",
    "TC.Props.c63_clock_europeOslo",
    "TC.Props.c63_clock_europeParis",
    "TC.Props.c63_clock_europePrague",
    "TC.Props.c63_clock_europeRome",
    "TC.Props.c63_clock_europeStockholm",
    "TC.Props.c63_clock_europeVienna",
    "TC.Props.c63_clock_europeWarsaw",
    "TC.Props.c63_clock_europeZurich",
    "TC.Props.c63_clock_nz",
    "TC.Props.c63_asex",
    "TC.Props.c63_bvmf",
    "TC.Props.c63_cmes",
    "TC.Props.c63_iepa",
    "TC.Props.c63_usFuturesCalendar",
    "TC.Props.c63_xams",
    "TC.Props.c63_xasx",
    "TC.Props.c63_xbkk",
    "TC.Props.c63_xbog",
    "TC.Props.c63_xbom",
    "TC.Props.c63_xbru",
    "TC.Props.c63_xbud",
    "TC.Props.c63_xbue",
    "TC.Props.c63_xcbf",
    "TC.Props.c63_xcse",
    "TC.Props.c63_xdub",
    "TC.Props.c63_xetr",
    "TC.Props.c63_xfra",
    "TC.Props.c63_xhel",
    "TC.Props.c63_xhkg",
    "TC.Props.c63_xice",
    "TC.Props.c63_xidx",
    "TC.Props.c63_xist",
    "TC.Props.c63_xjse",
    "TC.Props.c63_xkar",
    "TC.Props.c63_xkls",
    "TC.Props.c63_xkrx",
    "TC.Props.c63_xlim",
    "TC.Props.c63_xlis",
    "TC.Props.c63_xlon",
    "TC.Props.c63_xmad",
    "TC.Props.c63_xmex",
    "TC.Props.c63_xmil",
    "TC.Props.c63_xmos",
    "TC.Props.c63_xnys",
    "TC.Props.c63_xnze",
    "TC.Props.c63_xosl",
    "TC.Props.c63_xpar",
    "TC.Props.c63_xphs",
    "TC.Props.c63_xpra",
    "TC.Props.c63_xses",
    "TC.Props.c63_xsgo",
    "TC.Props.c63_xshg",
    "TC.Props.c63_xsto",
    "TC.Props.c63_xswx",
    "TC.Props.c63_xtae",
    "TC.Props.c63_xtai",
    "TC.Props.c63_xtks",
    "TC.Props.c63_xtse",
    "TC.Props.c63_xwar",
    "TC.Props.c63_xwbo"
   ],
   "note": "Same ranges as C61. The laws are in Spec/Clocks.lean; years with irregular changes that no rule by weekday describes are left out there (e.g. Istanbul 2011 and 2014 to 2016). The transition tables are those of tzdata 2026a, cut at 2037 as pytz does."
  },
  {
   "property": "C64",
   "status": "proved",
   "theorems": [
    "TC.Props.c64_asex",
    "TC.Props.c64_bvmf",
    "TC.Props.c64_cmes",
    "TC.Props.c64_iepa",
    "TC.Props.c64_usFuturesCalendar",
    "TC.Props.c64_xams",
    "TC.Props.c64_xasx",
    "TC.Props.c64_xbkk",
    "TC.Props.c64_xbog",
    "TC.Props.c64_xbom",
    "TC.Props.c64_xbru",
    "TC.Props.c64_xbud",
    "TC.Props.c64_xbue",
    "TC.Props.c64_xcbf",
    "TC.Props.c64_xcse",
    "TC.Props.c64_xdub",
    "TC.Props.c64_xetr",
    "TC.Props.c64_xfra",
    "TC.Props.c64_xhel",
    "TC.Props.c64_xhkg",
    "TC.Props.c64_xice",
    "TC.Props.c64_xidx",
    "TC.Props.c64_xist",
    "TC.Props.c64_xjse",
    "TC.Props.c64_xkar",
    "TC.Props.c64_xkls",
    "TC.Props.c64_xkrx",
    "TC.Props.c64_xlim",
    "TC.Props.c64_xlis",
    "TC.Props.c64_xlon",
    "TC.Props.c64_xmad",
    "TC.Props.c64_xmex",
    "TC.Props.c64_xmil",
    "TC.Props.c64_xmos",
    "TC.Props.c64_xnys",
    "TC.Props.c64_xnze",
    "TC.Props.c64_xosl",
    "TC.Props.c64_xpar",
    "TC.Props.c64_xphs",
    "TC.Props.c64_xpra",
    "TC.Props.c64_xses",
    "TC.Props.c64_xsgo",
    "TC.Props.c64_xshg",
    "TC.Props.c64_xsto",
    "TC.Props.c64_xswx",
    "TC.Props.c64_xtae",
    "TC.Props.c64_xtai",
    "TC.Props.c64_xtks",
    "TC.Props.c64_xtse",
    "TC.Props.c64_xwar",
    "TC.Props.c64_xwbo"
   ],
   "note": "Same ranges as C61. Trading days by TradesOn, the rules of the class (related to separately written holiday lists in C59, C46-C48, C55, C56). For XNYS, XKLS and XIST ranges with one of the listed days that are both closure and early close are excepted (C54). minute_to_session_label is the computation without its cache (C20), default direction; other directions only where it raises."
  },
  {
   "property": "C65",
   "status": "proved",
   "theorems": [
    "TC.Props.c65_local_cmp",
    "TC.Props.c65_new_moon",
    "TC.Props.c65_minutes_at_phase",
    "TC.Props.c65_month_starts",
    "TC.Props.c65_sui",
    "TC.Props.c65_new_year",
    "TC.Props.c65_nth_day"
   ],
   "note": "From the arrays of new moons, solstices and zhongqi on; the ephemeris, the files of longitudes and floating point are not modelled (distances are any type with a comparison)."
  },
  {
   "property": "C66",
   "status": "proved",
   "theorems": [
    "TC.Props.c66_overlap",
    "TC.Props.c66_row",
    "TC.Props.c66_default",
    "TC.Props.c66_import"
   ],
   "note": "minute_to_session_label for the directions next and none, computed without its cache (C20). minutes_in_range is compared where neither calendar raises."
  },
  {
   "property": "C67",
   "status": "proved",
   "theorems": [
    "TC.Props.c67_code",
    "TC.Props.c67_names",
    "TC.Props.c67_report",
    "TC.Props.c67_matches",
    "TC.Props.c67_time_of_day",
    "TC.Props.c67_run",
    "TC.Props.c67_stops"
   ],
   "note": "From the rows of the key on: reading and parsing the CSV file and the command line are not modelled; rows without date are excepted. Printed lines are constructors, without wording and colour."
  },
  {
   "property": "C68",
   "status": "proved",
   "theorems": [
    "TC.Props.c68_output",
    "TC.Props.c68_date",
    "TC.Props.c68_pieces",
    "TC.Props.c68_version",
    "TC.Props.c68_round_trip",
    "TC.Props.c68_distinct",
    "TC.Props.c68_styles",
    "TC.Props.c68_styled",
    "TC.Props.c68_default_style",
    "TC.Props.c68_unparseable",
    "TC.Props.c68_keywords",
    "TC.Props.c68_no_refs",
    "TC.Props.c68_directory",
    "TC.Props.c68_order"
   ],
   "note": "What git prints is an input. \\d is an arbitrary set of further digits besides the ASCII ones. The wording of parse errors is left out."
  },
  {
   "property": "C69",
   "status": "proved",
   "theorems": [
    "TC.Props.c69_alone",
    "TC.Props.c69_acyclic",
    "TC.Props.c69_gets",
    "TC.Props.c69_settled",
    "TC.Props.c69_two_calendars",
    "TC.Props.c69_collision_missed",
    "TC.Props.c69_key_error",
    "TC.Props.c69_both_refused",
    "TC.Props.c69_undo_key_error"
   ],
   "note": "Steps are single dictionary operations (atomic in CPython). c69_two_calendars, c69_collision_missed, c69_key_error, c69_undo_key_error and c69_both_refused are findings."
  },
  {
   "property": "C70",
   "status": "proved",
   "theorems": [
    "TC.Props.c70_alone",
    "TC.Props.c70_labels",
    "TC.Props.c70_one_session",
    "TC.Props.c70_wrong_label",
    "TC.Props.c70_lazyval",
    "TC.Props.c70_lazyval_same",
    "TC.Props.c70_lazyval_settled",
    "TC.Props.c70_lazyval_twice"
   ],
   "note": "Steps are single reads and writes of the cache (atomic in CPython). c70_wrong_label and c70_lazyval_twice are findings."
  },
  {
   "property": "C71",
   "status": "proved",
   "theorems": [
    "TC.Props.c71_render_month",
    "TC.Props.c71_month",
    "TC.Props.c71_leap",
    "TC.Props.c71_month_missing",
    "TC.Props.c71_year_missing",
    "TC.Props.c71_month_zero",
    "TC.Props.c71_year",
    "TC.Props.c71_year_incomplete"
   ],
   "note": "Usable data as in C65. The text is what is printed; the click options are not modelled."
  },
  {
   "property": "C72",
   "status": "proved",
   "theorems": [
    "TC.Props.c72_atomic",
    "TC.Props.c72_removes",
    "TC.Props.c72_clear",
    "TC.Props.c72_again",
    "TC.Props.c72_get_again",
    "TC.Props.c72_cycle",
    "TC.Props.c72_history",
    "TC.Props.c72_lost",
    "TC.Props.c72_cycle_left",
    "TC.Props.c72_labels",
    "TC.Props.c72_lazyval"
   ],
   "note": "Steps as in C69 and C70. c72_lost and c72_cycle_left are findings."
  },
  {
   "property": "C73",
   "status": "proved",
   "theorems": [
    "TC.Props.c73_format",
    "TC.Props.c73_missing",
    "TC.Props.c73_repr",
    "TC.Props.c73_cycle_read",
    "TC.Props.c73_unknown",
    "TC.Props.c73_taken",
    "TC.Props.c73_cyclic",
    "TC.Props.c73_refused",
    "TC.Props.c73_tells",
    "TC.Props.c73_message",
    "TC.Props.c73_base",
    "TC.Props.c73_tcal"
   ],
   "note": "str.format and repr of Python 3 as far as used; characters outside ASCII are printable by an arbitrary predicate. c73_base and the two classes without use in the library (ScheduleFunction...) have no further claims."
  },
  {
   "property": "C74",
   "status": "proved",
   "theorems": [
    "TC.Props.c74_given",
    "TC.Props.c74_own",
    "TC.Props.c74_others",
    "TC.Props.c74_shared",
    "TC.Props.c74_shared_get",
    "TC.Props.c74_shared_clear",
    "TC.Props.c74_bench"
   ],
   "note": "c74_shared_clear is a finding. Factories that return None are not modelled."
  },
  {
   "property": "C75",
   "status": "proved",
   "theorems": [
    "TC.Props.c75_file",
    "TC.Props.c75_seconds",
    "TC.Props.c75_round_trip",
    "TC.Props.c75_reading",
    "TC.Props.c75_destination",
    "TC.Props.c75_default",
    "TC.Props.c75_us_futures",
    "TC.Props.c75_refused"
   ],
   "note": "to_csv as in pandas 0.22, paths as in posixpath; that the file can be written is assumed. c75_us_futures is a finding."
  },
  {
   "property": "C76",
   "status": "proved",
   "theorems": [
    "TC.Props.c76_files",
    "TC.Props.c76_round_trip",
    "TC.Props.c76_interrupted",
    "TC.Props.c76_nothing",
    "TC.Props.c76_resumed",
    "TC.Props.c76_extended",
    "TC.Props.c76_misplaced",
    "TC.Props.c76_foreign",
    "TC.Props.c76_moons",
    "TC.Props.c76_mismatch",
    "TC.Props.c76_moons_interrupted",
    "TC.Props.c76_broadcast",
    "TC.Props.c76_read_time"
   ],
   "note": "The longitude of a minute is an arbitrary function. c76_extended, c76_misplaced, c76_broadcast and c76_foreign are findings."
  },
  {
   "property": "C77",
   "status": "proved",
   "theorems": [
    "TC.Props.c77_print_dates",
    "TC.Props.c77_new_year",
    "TC.Props.c77_festival",
    "TC.Props.c77_qingming",
    "TC.Props.c77_chinese_cal",
    "TC.Props.c77_weekday"
   ],
   "note": "What floating point operations yield is arbitrary; --output and click's options are not modelled. c77_weekday is a finding."
  },
  {
   "property": "C78",
   "status": "proved",
   "theorems": [
    "TC.Props.c78_correction",
    "TC.Props.c78_increasing",
    "TC.Props.c78_close",
    "TC.Props.c78_early",
    "TC.Props.c78_smooth",
    "TC.Props.c78_smooth_edges",
    "TC.Props.c78_smoothed"
   ],
   "note": "Exact arithmetic instead of floating point. c78_early is a finding, also the length in c78_smooth."
  },
  {
   "property": "C79",
   "status": "proved",
   "theorems": [
    "TC.Props.c79_labels",
    "TC.Props.c79_regular",
    "TC.Props.c79_late",
    "TC.Props.c79_refused",
    "TC.Props.c79_end",
    "TC.Props.c79_default",
    "TC.Props.c79_default_refused",
    "TC.Props.c79_default_end"
   ],
   "note": "starts and ends with a time of day, for any class and for the library's classes; what exactly the labels are, that everything is late, that special times make construction fail"
  },
  {
   "property": "C80",
   "status": "proved",
   "theorems": [
    "TC.Props.c80_machines",
    "TC.Props.c80_build",
    "TC.Props.c80_values",
    "TC.Props.c80_minutes",
    "TC.Props.c80_count",
    "TC.Props.c80_default",
    "TC.Props.c80_library"
   ],
   "note": "construction, trading minutes and counts in machine arithmetic; c80_library adds the expansion of holiday rules, whose steps inside one offset or observance are not checked"
  },
  {
   "property": "C81",
   "status": "proved",
   "theorems": [
    "TC.Props.c81_row",
    "TC.Props.c81_local",
    "TC.Props.c81_closed_days",
    "TC.Props.c81_holiday",
    "TC.Props.c81_holiday_refused",
    "TC.Props.c81_holiday_far",
    "TC.Props.c81_early_close",
    "TC.Props.c81_late_open",
    "TC.Props.c81_hours",
    "TC.Props.c81_default"
   ],
   "note": "any two classes, then four kinds of change; holidays also for the classes of the library"
  },
  {
   "property": "C82",
   "status": "proved",
   "theorems": [
    "TC.Props.c82_next_monotone",
    "TC.Props.c82_previous_monotone",
    "TC.Props.c82_ladder",
    "TC.Props.c82_open_by_next",
    "TC.Props.c82_open",
    "TC.Props.c82_label_monotone",
    "TC.Props.c82_label_previous",
    "TC.Props.c82_label_none",
    "TC.Props.c82_ranges",
    "TC.Props.c82_distance",
    "TC.Props.c82_sessions_window",
    "TC.Props.c82_minutes_window"
   ],
   "note": "laws relating several calls"
  },
  {
   "property": "C83",
   "status": "proved",
   "theorems": [
    "TC.Props.c83_window",
    "TC.Props.c83_model",
    "TC.Props.c83_outside",
    "TC.Props.c83_default"
   ],
   "note": "c83_outside is a finding"
  },
  {
   "property": "C84",
   "status": "proved",
   "theorems": [
    "TC.Props.c84_next",
    "TC.Props.c84_previous",
    "TC.Props.c84_at_least",
    "TC.Props.c84_year",
    "TC.Props.c84_24_5",
    "TC.Props.c84_24_7",
    "TC.Props.c84_table",
    "TC.Props.c84_every",
    "TC.Props.c84_default",
    "TC.Props.c84_asex",
    "TC.Props.c84_xams",
    "TC.Props.c84_xbom",
    "TC.Props.c84_xcbf",
    "TC.Props.c84_xetr",
    "TC.Props.c84_xidx",
    "TC.Props.c84_xkls",
    "TC.Props.c84_xlon",
    "TC.Props.c84_xmos",
    "TC.Props.c84_xpar",
    "TC.Props.c84_xsgo",
    "TC.Props.c84_xtai",
    "TC.Props.c84_xwbo",
    "TC.Props.c84_bvmf",
    "TC.Props.c84_xasx",
    "TC.Props.c84_xbru",
    "TC.Props.c84_xcse",
    "TC.Props.c84_xhel",
    "TC.Props.c84_xist",
    "TC.Props.c84_xkrx",
    "TC.Props.c84_xmad",
    "TC.Props.c84_xnys",
    "TC.Props.c84_xphs",
    "TC.Props.c84_xshg",
    "TC.Props.c84_xtks",
    "TC.Props.c84_usFuturesCalendar",
    "TC.Props.c84_cmes",
    "TC.Props.c84_xbkk",
    "TC.Props.c84_xbud",
    "TC.Props.c84_xdub",
    "TC.Props.c84_xhkg",
    "TC.Props.c84_xjse",
    "TC.Props.c84_xlim",
    "TC.Props.c84_xmex",
    "TC.Props.c84_xnze",
    "TC.Props.c84_xpra",
    "TC.Props.c84_xsto",
    "TC.Props.c84_xtse",
    "TC.Props.c84_iepa",
    "TC.Props.c84_xbog",
    "TC.Props.c84_xbue",
    "TC.Props.c84_xfra",
    "TC.Props.c84_xice",
    "TC.Props.c84_xkar",
    "TC.Props.c84_xlis",
    "TC.Props.c84_xmil",
    "TC.Props.c84_xosl",
    "TC.Props.c84_xses",
    "TC.Props.c84_xswx",
    "TC.Props.c84_xwar",
    "TC.Props.c84_xtae"
   ],
   "note": "the longest closure is over all days; numbers per year up to 2200"
  },
  {
   "property": "C85",
   "status": "proved",
   "theorems": [
    "TC.Props.c85_same_since",
    "TC.Props.c85_within_since",
    "TC.Props.c85_same_always",
    "TC.Props.c85_within_always",
    "TC.Props.c85_sessions",
    "TC.Props.c85_subset",
    "TC.Props.c85_calendars",
    "TC.Props.c85_differ"
   ],
   "note": "tables of pairs; all days"
  },
  {
   "property": "C86",
   "status": "proved",
   "theorems": [
    "TC.Props.c86_open_with",
    "TC.Props.c86_open_with_to_2200",
    "TC.Props.c86_euronext"
   ],
   "note": "table of pairs; tables of time zones end with 2037 as pytz has them"
  },
  {
   "property": "C87",
   "status": "proved",
   "theorems": [
    "TC.Props.c87_alike",
    "TC.Props.c87_swap",
    "TC.Props.c87_any_order",
    "TC.Props.c87_default"
   ],
   "note": "bisimulation, then commutation, then permutations"
  },
  {
   "property": "C88",
   "status": "proved",
   "theorems": [
    "TC.Props.c88_asex",
    "TC.Props.c88_bvmf",
    "TC.Props.c88_cmes",
    "TC.Props.c88_iepa",
    "TC.Props.c88_usFuturesCalendar",
    "TC.Props.c88_xams",
    "TC.Props.c88_xasx",
    "TC.Props.c88_xbkk",
    "TC.Props.c88_xbog",
    "TC.Props.c88_xbom",
    "TC.Props.c88_xbru",
    "TC.Props.c88_xbud",
    "TC.Props.c88_xbue",
    "TC.Props.c88_xcbf",
    "TC.Props.c88_xcse",
    "TC.Props.c88_xdub",
    "TC.Props.c88_xetr",
    "TC.Props.c88_xfra",
    "TC.Props.c88_xhel",
    "TC.Props.c88_xhkg",
    "TC.Props.c88_xice",
    "TC.Props.c88_xidx",
    "TC.Props.c88_xist",
    "TC.Props.c88_xjse",
    "TC.Props.c88_xkar",
    "TC.Props.c88_xkls",
    "TC.Props.c88_xkrx",
    "TC.Props.c88_xlim",
    "TC.Props.c88_xlis",
    "TC.Props.c88_xlon",
    "TC.Props.c88_xmad",
    "TC.Props.c88_xmex",
    "TC.Props.c88_xmil",
    "TC.Props.c88_xmos",
    "TC.Props.c88_xnys",
    "TC.Props.c88_xnze",
    "TC.Props.c88_xosl",
    "TC.Props.c88_xpar",
    "TC.Props.c88_xphs",
    "TC.Props.c88_xpra",
    "TC.Props.c88_xses",
    "TC.Props.c88_xsgo",
    "TC.Props.c88_xshg",
    "TC.Props.c88_xsto",
    "TC.Props.c88_xswx",
    "TC.Props.c88_xtae",
    "TC.Props.c88_xtai",
    "TC.Props.c88_xtks",
    "TC.Props.c88_xtse",
    "TC.Props.c88_xwar",
    "TC.Props.c88_xwbo",
    "TC.Props.c88_default",
    "TC.Props.c88_every",
    "TC.Props.c88_war_time",
    "TC.Props.c88_count",
    "TC.Props.c88_count_exact"
   ],
   "note": "table of lengths for all default names; the odd session 1942-02-09 is a theorem"
  },
  {
   "property": "C89",
   "status": "proved",
   "theorems": [
    "TC.Props.c89_conservative",
    "TC.Props.c89_acyclic",
    "TC.Props.c89_returned",
    "TC.Props.c89_get",
    "TC.Props.c89_identity",
    "TC.Props.c89_limit",
    "TC.Props.c89_circle",
    "TC.Props.c89_two_objects",
    "TC.Props.c89_two_roles"
   ],
   "note": "factories as programs of public calls; two findings"
  },
  {
   "property": "C90",
   "status": "proved",
   "theorems": [
    "TC.Props.c90_one_moon",
    "TC.Props.c90_chinese",
    "TC.Props.c90_2034",
    "TC.Props.c90_hong_kong",
    "TC.Props.c90_taipei",
    "TC.Props.c90_qingming",
    "TC.Props.c90_islamic",
    "TC.Props.c90_mawlid",
    "TC.Props.c90_days_off",
    "TC.Props.c90_isra",
    "TC.Props.c90_thai",
    "TC.Props.c90_equinoxes",
    "TC.Props.c90_tokyo",
    "TC.Props.c90_script",
    "TC.Props.c90_not_the_script"
   ],
   "note": "every entry of the tables of festivals against counted moons; 2034 is a month early in four tables, with consequences for XHKG and XTAI; equinoxes of XTKS by the formula until 2021, open on them afterwards"
  },
  {
   "property": "C91",
   "status": "proved",
   "theorems": [
    "TC.Props.c91_mumbai",
    "TC.Props.c91_mumbai_1998",
    "TC.Props.c91_seoul",
    "TC.Props.c91_singapore",
    "TC.Props.c91_shanghai"
   ],
   "note": "four markets with recorded closures only; the missing days are part of the statements"
  },
  {
   "property": "C92",
   "status": "proved",
   "theorems": [
    "TC.Props.c92_bangkok",
    "TC.Props.c92_jakarta",
    "TC.Props.c92_karachi",
    "TC.Props.c92_manila",
    "TC.Props.c92_kuala_lumpur",
    "TC.Props.c92_taipei",
    "TC.Props.c92_hong_kong",
    "TC.Props.c92_istanbul",
    "TC.Props.c92_athens",
    "TC.Props.c92_eid"
   ],
   "note": "nine markets, each with a closure that shows the last year is sharp"
  },
  {
   "property": "C93",
   "status": "proved",
   "theorems": [
    "TC.Props.c93_asex",
    "TC.Props.c93_bvmf",
    "TC.Props.c93_cmes",
    "TC.Props.c93_iepa",
    "TC.Props.c93_usFuturesCalendar",
    "TC.Props.c93_xams",
    "TC.Props.c93_xasx",
    "TC.Props.c93_xbkk",
    "TC.Props.c93_xbog",
    "TC.Props.c93_xbom",
    "TC.Props.c93_xbru",
    "TC.Props.c93_xbud",
    "TC.Props.c93_xbue",
    "TC.Props.c93_xcbf",
    "TC.Props.c93_xcse",
    "TC.Props.c93_xdub",
    "TC.Props.c93_xetr",
    "TC.Props.c93_xfra",
    "TC.Props.c93_xhel",
    "TC.Props.c93_xhkg",
    "TC.Props.c93_xice",
    "TC.Props.c93_xidx",
    "TC.Props.c93_xist",
    "TC.Props.c93_xjse",
    "TC.Props.c93_xkar",
    "TC.Props.c93_xkls",
    "TC.Props.c93_xkrx",
    "TC.Props.c93_xlim",
    "TC.Props.c93_xlis",
    "TC.Props.c93_xlon",
    "TC.Props.c93_xmad",
    "TC.Props.c93_xmex",
    "TC.Props.c93_xmil",
    "TC.Props.c93_xmos",
    "TC.Props.c93_xnys",
    "TC.Props.c93_xnze",
    "TC.Props.c93_xosl",
    "TC.Props.c93_xpar",
    "TC.Props.c93_xphs",
    "TC.Props.c93_xpra",
    "TC.Props.c93_xses",
    "TC.Props.c93_xsgo",
    "TC.Props.c93_xshg",
    "TC.Props.c93_xsto",
    "TC.Props.c93_xswx",
    "TC.Props.c93_xtae",
    "TC.Props.c93_xtai",
    "TC.Props.c93_xtks",
    "TC.Props.c93_xtse",
    "TC.Props.c93_xwar",
    "TC.Props.c93_xwbo",
    "TC.Props.c93_always_open",
    "TC.Props.c93_weekdays"
   ],
   "note": "51 markets, 24/7 and 24/5; the markets and years for which the UTC date is not the label are part of the statements"
  },
  {
   "property": "C94",
   "status": "proved",
   "theorems": [
    "TC.Props.c94_asex",
    "TC.Props.c94_xbom",
    "TC.Props.c94_xetr",
    "TC.Props.c94_xkls",
    "TC.Props.c94_xmos",
    "TC.Props.c94_xsgo",
    "TC.Props.c94_xwbo",
    "TC.Props.c94_bvmf",
    "TC.Props.c94_xbru",
    "TC.Props.c94_xhel",
    "TC.Props.c94_xkrx",
    "TC.Props.c94_xnys",
    "TC.Props.c94_xshg",
    "TC.Props.c94_usFuturesCalendar",
    "TC.Props.c94_cmes",
    "TC.Props.c94_xbud",
    "TC.Props.c94_xhkg",
    "TC.Props.c94_xlim",
    "TC.Props.c94_xnze",
    "TC.Props.c94_xsto",
    "TC.Props.c94_iepa",
    "TC.Props.c94_xbue",
    "TC.Props.c94_xice",
    "TC.Props.c94_xlis",
    "TC.Props.c94_xosl",
    "TC.Props.c94_xswx",
    "TC.Props.c94_xams",
    "TC.Props.c94_xcbf",
    "TC.Props.c94_xidx",
    "TC.Props.c94_xlon",
    "TC.Props.c94_xpar",
    "TC.Props.c94_xtai",
    "TC.Props.c94_xasx",
    "TC.Props.c94_xcse",
    "TC.Props.c94_xist",
    "TC.Props.c94_xmad",
    "TC.Props.c94_xphs",
    "TC.Props.c94_xtks",
    "TC.Props.c94_xbkk",
    "TC.Props.c94_xdub",
    "TC.Props.c94_xjse",
    "TC.Props.c94_xmex",
    "TC.Props.c94_xpra",
    "TC.Props.c94_xtse",
    "TC.Props.c94_xbog",
    "TC.Props.c94_xfra",
    "TC.Props.c94_xkar",
    "TC.Props.c94_xmil",
    "TC.Props.c94_xses",
    "TC.Props.c94_xwar",
    "TC.Props.c94_xtae",
    "TC.Props.c94_24_5",
    "TC.Props.c94_24_7",
    "TC.Props.c94_table",
    "TC.Props.c94_every",
    "TC.Props.c94_month",
    "TC.Props.c94_default",
    "TC.Props.c94_asex_july",
    "TC.Props.c94_xshg_february"
   ],
   "note": "53 calendars; least and greatest number of sessions of a month and the distance of sessions from its ends, all attained"
  },
  {
   "property": "C95",
   "status": "proved",
   "theorems": [
    "TC.Props.c95_file",
    "TC.Props.c95_tree",
    "TC.Props.c95_made",
    "TC.Props.c95_quotation_mark",
    "TC.Props.c95_keywords",
    "TC.Props.c95_checkout",
    "TC.Props.c95_directory",
    "TC.Props.c95_archive"
   ],
   "note": "reading back holds for all strings; the import for plain ones, with a counterexample otherwise"
  },
  {
   "property": "C96",
   "status": "proved",
   "theorems": [
    "TC.Props.c96_asex",
    "TC.Props.c96_xbom",
    "TC.Props.c96_xetr",
    "TC.Props.c96_xkls",
    "TC.Props.c96_xmos",
    "TC.Props.c96_xsgo",
    "TC.Props.c96_xwbo",
    "TC.Props.c96_bvmf",
    "TC.Props.c96_xbru",
    "TC.Props.c96_xhel",
    "TC.Props.c96_xkrx",
    "TC.Props.c96_xnys",
    "TC.Props.c96_xshg",
    "TC.Props.c96_usFuturesCalendar",
    "TC.Props.c96_cmes",
    "TC.Props.c96_xbud",
    "TC.Props.c96_xhkg",
    "TC.Props.c96_xlim",
    "TC.Props.c96_xnze",
    "TC.Props.c96_xsto",
    "TC.Props.c96_iepa",
    "TC.Props.c96_xbue",
    "TC.Props.c96_xice",
    "TC.Props.c96_xlis",
    "TC.Props.c96_xosl",
    "TC.Props.c96_xswx",
    "TC.Props.c96_xams",
    "TC.Props.c96_xcbf",
    "TC.Props.c96_xidx",
    "TC.Props.c96_xlon",
    "TC.Props.c96_xpar",
    "TC.Props.c96_xtai",
    "TC.Props.c96_xasx",
    "TC.Props.c96_xcse",
    "TC.Props.c96_xist",
    "TC.Props.c96_xmad",
    "TC.Props.c96_xphs",
    "TC.Props.c96_xtks",
    "TC.Props.c96_xbkk",
    "TC.Props.c96_xdub",
    "TC.Props.c96_xjse",
    "TC.Props.c96_xmex",
    "TC.Props.c96_xpra",
    "TC.Props.c96_xtse",
    "TC.Props.c96_xbog",
    "TC.Props.c96_xfra",
    "TC.Props.c96_xkar",
    "TC.Props.c96_xmil",
    "TC.Props.c96_xses",
    "TC.Props.c96_xwar",
    "TC.Props.c96_xtae",
    "TC.Props.c96_24_5",
    "TC.Props.c96_24_7",
    "TC.Props.c96_table",
    "TC.Props.c96_every",
    "TC.Props.c96_week",
    "TC.Props.c96_default",
    "TC.Props.c96_xnys_september"
   ],
   "note": "53 calendars; least and greatest number of sessions of a week, both attained, and the exact list of the weeks without one"
  },
  {
   "property": "C97",
   "status": "proved",
   "theorems": [
    "TC.Props.c97_kept",
    "TC.Props.c97_done",
    "TC.Props.c97_again",
    "TC.Props.c97_settles",
    "TC.Props.c97_grows"
   ],
   "note": "with a complete section in setup.cfg; what is printed and passed to git add is left out"
  },
  {
   "property": "C98",
   "status": "proved",
   "theorems": [
    "TC.Props.c98_cmes",
    "TC.Props.c98_xbru",
    "TC.Props.c98_xetr",
    "TC.Props.c98_xkls",
    "TC.Props.c98_xnys",
    "TC.Props.c98_xsgo",
    "TC.Props.c98_iepa_minutes",
    "TC.Props.c98_xbue_minutes",
    "TC.Props.c98_xfra_minutes",
    "TC.Props.c98_xlon_minutes",
    "TC.Props.c98_xpar_minutes",
    "TC.Props.c98_iepa",
    "TC.Props.c98_xbue",
    "TC.Props.c98_xfra",
    "TC.Props.c98_xlis",
    "TC.Props.c98_xnze",
    "TC.Props.c98_xsto",
    "TC.Props.c98_xams_minutes",
    "TC.Props.c98_xcbf_minutes",
    "TC.Props.c98_xist_minutes",
    "TC.Props.c98_xmad_minutes",
    "TC.Props.c98_xsto_minutes",
    "TC.Props.c98_xams",
    "TC.Props.c98_xcbf",
    "TC.Props.c98_xhkg",
    "TC.Props.c98_xlon",
    "TC.Props.c98_xosl",
    "TC.Props.c98_xtse",
    "TC.Props.c98_xasx_minutes",
    "TC.Props.c98_xdub_minutes",
    "TC.Props.c98_xkls_minutes",
    "TC.Props.c98_xnze_minutes",
    "TC.Props.c98_xtse_minutes",
    "TC.Props.c98_xasx",
    "TC.Props.c98_xdub",
    "TC.Props.c98_xist",
    "TC.Props.c98_xmad",
    "TC.Props.c98_xpar",
    "TC.Props.c98_cmes_minutes",
    "TC.Props.c98_xbru_minutes",
    "TC.Props.c98_xetr_minutes",
    "TC.Props.c98_xlis_minutes",
    "TC.Props.c98_xosl_minutes",
    "TC.Props.c98_listed",
    "TC.Props.c98_table",
    "TC.Props.c98_minutes_table",
    "TC.Props.c98_default",
    "TC.Props.c98_others",
    "TC.Props.c98_no_late_opens",
    "TC.Props.c98_minutes",
    "TC.Props.c98_minutes_default",
    "TC.Props.c98_xnys_minutes",
    "TC.Props.c98_xnys_time",
    "TC.Props.c98_xnys_year"
   ],
   "note": "23 calendars with early closes, all others proved to have none; minutes of a year for 20 of them and for XNYS from 1993 (not XHKG and XSGO, whose sessions have more lengths); numbers per year up to 2200 (XHKG 2049)"
  },
  {
   "property": "C99",
   "status": "proved",
   "theorems": [
    "TC.Props.c99_last_day",
    "TC.Props.c99_full_length",
    "TC.Props.c99_inside",
    "TC.Props.c99_exact",
    "TC.Props.c99_depends",
    "TC.Props.c99_xnze_first"
   ],
   "note": "all 53 default calendars; for XNZE the first day instead of the last"
  },
  {
   "property": "C100",
   "status": "proved",
   "theorems": [
    "TC.Props.c100_scan",
    "TC.Props.c100_exit",
    "TC.Props.c100_mended",
    "TC.Props.c100_more"
   ],
   "note": "with a complete section in setup.cfg, as C97"
  },
  {
   "property": "C101",
   "status": "proved",
   "theorems": [
    "TC.Props.c101_once",
    "TC.Props.c101_appended",
    "TC.Props.c101_untouched",
    "TC.Props.c101_emptied",
    "TC.Props.c101_done",
    "TC.Props.c101_read",
    "TC.Props.c101_only_vcs",
    "TC.Props.c101_within",
    "TC.Props.c101_repo"
   ],
   "note": "the parser of Python 3; values with a per cent sign and letters other than A to Z are simplified"
  }
 ]
}