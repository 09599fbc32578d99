{
 "claims": [
  {
   "property": "C01",
   "status": "proved",
   "theorems": [
    "CalCore.C01_removeOverlaps_coverage"
   ],
   "note": "all lists of tuples, including empty and inverted ones"
  },
  {
   "property": "C02",
   "status": "proved",
   "theorems": [
    "CalCore.C02_removeOverlaps_separated"
   ],
   "note": ""
  },
  {
   "property": "C03",
   "status": "proved",
   "theorems": [
    "CalCore.C03_removeOverlaps_canonical",
    "CalCore.C03_removeOverlaps_set_idem"
   ],
   "note": ""
  },
  {
   "property": "C04",
   "status": "proved",
   "theorems": [
    "CalCore.C04_weeknr2datetime"
   ],
   "note": ""
  },
  {
   "property": "C05",
   "status": "proved",
   "theorems": [
    "CalCore.C05_getWeeksInYear"
   ],
   "note": ""
  },
  {
   "property": "C06",
   "status": "proved",
   "theorems": [
    "CalCore.C06_weekspan"
   ],
   "note": ""
  },
  {
   "property": "C07",
   "status": "partial",
   "theorems": [
    "CalCore.C07_monthindex_pos",
    "CalCore.C07_monthindex_neg_partial",
    "CalCore.C07_monthindex_fifth",
    "CalCore.C07_monthindex_minus_fifth",
    "CalCore.C07_monthindex_december_9999"
   ],
   "note": "index 1..4 proved without restriction; -4..-1 proved except for December 9999, where the code raises ValueError (C07_monthindex_december_9999); the 5/-5 behaviour is characterised"
  },
  {
   "property": "C08",
   "status": "proved",
   "theorems": [
    "CalCore.C08_daily",
    "CalCore.C08_daily_ok",
    "CalCore.C08_daily_enddate_ok"
   ],
   "note": "exact set of dates in order for every rule, start and bounds; the generation ends normally whenever a date beyond a bound is representable"
  },
  {
   "property": "C09",
   "status": "partial",
   "theorems": [
    "CalCore.C09_yearly_partial",
    "CalCore.C09_yearly_general",
    "CalCore.C09_yearly_feb29_raises",
    "CalCore.C09_yearly_counterexample"
   ],
   "note": "proved for all starts but 29 February; for 29 February the code raises after the start (C09_yearly_feb29_raises, counterexample with count=1); C09_yearly_general describes all starts"
  },
  {
   "property": "C10",
   "status": "proved",
   "theorems": [
    "CalCore.C10_weekly",
    "CalCore.C10_weekly_ok"
   ],
   "note": "exact set of dates in order; no exception for enddates before 9999-12-31"
  },
  {
   "property": "C11",
   "status": "proved",
   "theorems": [
    "CalCore.C11_monthday",
    "CalCore.C11_monthday_raises",
    "CalCore.C11_monthday_ok"
   ],
   "note": "exact set of dates in order; exceptions only when the calendar range is exhausted"
  },
  {
   "property": "C12",
   "status": "partial",
   "theorems": [
    "CalCore.C12_weekday_general",
    "CalCore.C12_weekday_partial",
    "CalCore.C12_weekday_counterexample"
   ],
   "note": "proved for starts on days 1-28; for days 29-31 the dates may leave the month (counterexample); C12_weekday_general describes all starts"
  },
  {
   "property": "C13",
   "status": "partial",
   "theorems": [
    "CalCore.C13_lastweekday_general",
    "CalCore.C13_lastweekday_partial",
    "CalCore.C13_lastweekday_counterexample",
    "CalCore.C13_lastweekday_december_9999"
   ],
   "note": "proved for starts in the last 28 days of a month and enddates before December 9999; otherwise false (two counterexamples); C13_lastweekday_general describes all starts and enddates"
  },
  {
   "property": "C14",
   "status": "partial",
   "theorems": [
    "CalCore.C14_increasing",
    "CalCore.C14_start_first_partial",
    "CalCore.C14_start_only_within"
   ],
   "note": "increasing and not before the start: every class and prefix; start first: all but lastweekday rules in December 9999 (false there, C13_lastweekday_december_9999)"
  },
  {
   "property": "C15",
   "status": "partial",
   "theorems": [
    "CalCore.C15_bounds_partial",
    "CalCore.C15_no_counterexample"
   ],
   "note": "all classes but NoRecurrenceRule, for which it is false (counterexample)"
  },
  {
   "property": "C16",
   "status": "partial",
   "theorems": [
    "CalCore.C16_truncation_partial",
    "CalCore.C16_no_counterexample"
   ],
   "note": "all classes but NoRecurrenceRule, for which it is false (counterexample)"
  },
  {
   "property": "C17",
   "status": "partial",
   "theorems": [
    "CalCore.C17_hangs_iff",
    "CalCore.C17_terminates_partial",
    "CalCore.C17_diverge_iff",
    "CalCore.C17_import_counterexample",
    "CalCore.C17_store_partial",
    "CalCore.C17_store_counterexample"
   ],
   "note": "rules that hang are characterised exactly; proved for interval != 0, for rules and for queries on a store; import_ can create interval 0, after which every query hangs (counterexamples)"
  },
  {
   "property": "C18",
   "status": "proved",
   "theorems": [
    "CalCore.C18_eq_iff",
    "CalCore.C18_equivalence",
    "CalCore.C18_replace",
    "CalCore.C18_replace_nothing"
   ],
   "note": ""
  },
  {
   "property": "C19",
   "status": "partial",
   "theorems": [
    "CalCore.C19_new",
    "CalCore.C19_newMonthly",
    "CalCore.C19_import_partial",
    "CalCore.C19_import_counterexample"
   ],
   "note": "constructors: proved; import_: proved for INTERVAL >= 1 and not both COUNT and UNTIL, false otherwise (counterexamples)"
  },
  {
   "property": "C20",
   "status": "partial",
   "theorems": [
    "CalCore.C20_getEvents_exact",
    "CalCore.C20_getEvents_partial",
    "CalCore.C20_empty_period_counterexample"
   ],
   "note": "exact result for every store and period, by the comparison made; in terms of common instants for non-empty periods and non-negative durations; false for empty periods (counterexample)"
  },
  {
   "property": "C21",
   "status": "proved",
   "theorems": [
    "CalCore.C21_segments_cover",
    "CalCore.C21_segments_return",
    "CalCore.C21_segments_terminate"
   ],
   "note": "segments cover every instant as often as the occurrences, for all periods and durations, including which original they belong to. Returning normally needs dates before 9999-12-31."
  },
  {
   "property": "C22",
   "status": "partial",
   "theorems": [
    "CalCore.C22_segments_fit",
    "CalCore.C22_nonempty_partial",
    "CalCore.C22_empty_partial",
    "CalCore.C22_midnight_counterexample"
   ],
   "note": "the non-emptiness part is false for occurrences ending at midnight (C22_midnight_counterexample); proved for all others, and C22_empty_partial says where empty segments are."
  },
  {
   "property": "C23",
   "status": "partial",
   "theorems": [
    "CalCore.C23_nested_partial",
    "CalCore.C23_import_counterexample"
   ],
   "note": "proved for stores whose rules have positive intervals; a rule imported with a negative interval breaks it (counterexample)"
  },
  {
   "property": "C24",
   "status": "proved",
   "theorems": [
    "CalCore.C24_expand_exact",
    "CalCore.C24_expand_shown",
    "CalCore.C24_expand_single",
    "CalCore.C24_getOccurrences"
   ],
   "note": "one per date of the rule that ends after the beginning and starts before the end of the period; the same in terms of common instants for non-empty periods"
  },
  {
   "property": "C25",
   "status": "partial",
   "theorems": [
    "CalCore.C25_separated",
    "CalCore.C25_ordered_partial",
    "CalCore.C25_negative_counterexample"
   ],
   "note": "begin <= end is false for events of negative duration, which createEvent and import accept (C25_negative_counterexample); sortedness and separation hold for every store."
  },
  {
   "property": "C26",
   "status": "partial",
   "theorems": [
    "CalCore.C26_blocked_partial",
    "CalCore.C26_cancelled_counterexample"
   ],
   "note": "proved at every instant for stores whose rules have positive intervals and dates as until. An event with the documented status 'CANCELLED' still blocks (C26_cancelled_counterexample): the code tests 'CANCELED'."
  },
  {
   "property": "C27",
   "status": "proved",
   "theorems": [
    "CalCore.C27_blocked_order",
    "CalCore.C27_free_order"
   ],
   "note": ""
  },
  {
   "property": "C28",
   "status": "proved",
   "theorems": [
    "CalCore.C28_monotone",
    "CalCore.C28_returns"
   ],
   "note": ""
  },
  {
   "property": "C29",
   "status": "partial",
   "theorems": [
    "CalCore.C29_general",
    "CalCore.C29_free_partial",
    "CalCore.C29_begin_counterexample",
    "CalCore.C29_end_counterexample"
   ],
   "note": "false when the period begins inside the window or does not end at midnight (C29_begin_counterexample, C29_end_counterexample); proved otherwise. C29_general describes the result for every period: the days touched by the period are answered as a whole."
  },
  {
   "property": "C30",
   "status": "proved",
   "theorems": [
    "CalCore.C30_minimal_duration"
   ],
   "note": ""
  },
  {
   "property": "C31",
   "status": "partial",
   "theorems": [
    "CalCore.C31_bookable_partial",
    "CalCore.C31_general",
    "CalCore.C31_begin_counterexample",
    "CalCore.C31_end_counterexample",
    "CalCore.C31_negative_counterexample"
   ],
   "note": "false for periods beginning or ending inside the window (C31_begin_counterexample, C31_end_counterexample); proved otherwise. C31_general: for every period, no conflict inside the period."
  },
  {
   "property": "C32",
   "status": "proved",
   "theorems": [
    "CalCore.C32_step",
    "CalCore.C32_history",
    "CalCore.C32_getEvent",
    "CalCore.C32_deleteEvent",
    "CalCore.C32_latest"
   ],
   "note": "every call except import_ refines the map semantics (C46, C47 describe import_); any sequence of them."
  },
  {
   "property": "C33",
   "status": "partial",
   "theorems": [
    "CalCore.C33_clock_partial",
    "CalCore.C33_fresh_partial",
    "CalCore.C33_delete_counterexample"
   ],
   "note": "false after deletions: the counter is the number of events (C33_delete_counterexample). Proved for histories without deletions and imports, and for all histories if no event was created in the same second before (C33_clock_partial)."
  },
  {
   "property": "C34",
   "status": "proved",
   "theorems": [
    "CalCore.C34_mirror",
    "CalCore.C34_failures_silent"
   ],
   "note": ""
  },
  {
   "property": "C35",
   "status": "partial",
   "theorems": [
    "CalCore.C35_events_once",
    "CalCore.C35_occurrences_once_partial",
    "CalCore.C35_import_counterexample"
   ],
   "note": "getEvents: every history; getOccurrences: stores whose rules have positive intervals; false for a rule imported with interval 0 (counterexample)"
  },
  {
   "property": "C36",
   "status": "proved",
   "theorems": [
    "CalCore.C36_match_iff",
    "CalCore.C36_match_none"
   ],
   "note": ""
  },
  {
   "property": "C37",
   "status": "partial",
   "theorems": [
    "CalCore.C37_attendee_partial",
    "CalCore.C37_calendar_partial",
    "CalCore.C37_leak_counterexample"
   ],
   "note": "proved for criteria that do not name attendees themselves; otherwise the criteria win and foreign events are shown (counterexample)"
  },
  {
   "property": "C38",
   "status": "partial",
   "theorems": [
    "CalCore.C38_create_delete",
    "CalCore.C38_status_partial",
    "CalCore.C38_status_counterexample"
   ],
   "note": "false for setParticipationStatus(a, None) when a has a status but no role (C38_status_counterexample); createEvent and deleteEvent in full."
  },
  {
   "property": "C39",
   "status": "proved",
   "theorems": [
    "CalCore.C39_organized_exact"
   ],
   "note": ""
  },
  {
   "property": "C40",
   "status": "proved",
   "theorems": [
    "CalCore.C40_invite",
    "CalCore.C40_notifications",
    "CalCore.C40_idempotent"
   ],
   "note": ""
  },
  {
   "property": "C41",
   "status": "partial",
   "theorems": [
    "CalCore.C41_invalid",
    "CalCore.C41_notify_partial",
    "CalCore.C41_returns_iff",
    "CalCore.C41_silent_counterexample"
   ],
   "note": "false when the call raises KeyError: the status is removed without a notification (C41_silent_counterexample). Proved for every call that returns, and C41_returns_iff says which do."
  },
  {
   "property": "C42",
   "status": "partial",
   "theorems": [
    "CalCore.C42_removed",
    "CalCore.C42_removes_partial",
    "CalCore.C42_status_counterexample",
    "CalCore.C42_role_counterexample"
   ],
   "note": "false when somebody not invited was given a status or a role (C42_status_counterexample, C42_role_counterexample); proved for all histories without such calls."
  },
  {
   "property": "C43",
   "status": "partial",
   "theorems": [
    "CalCore.C43_exact",
    "CalCore.C43_returns_partial",
    "CalCore.C43_raises_counterexample"
   ],
   "note": "exact whenever it returns, in every history; it raises KeyError when somebody not invited was given a status (C43_raises_counterexample)."
  },
  {
   "property": "C44",
   "status": "partial",
   "theorems": [
    "CalCore.C44_organized",
    "CalCore.C44_accepted_partial",
    "CalCore.C44_listed_counterexample"
   ],
   "note": "status and role are overridden when the data list the organizer as attendee (C44_listed_counterexample)."
  },
  {
   "property": "C45",
   "status": "partial",
   "theorems": [
    "CalCore.C45_create_partial",
    "CalCore.C45_idempotent_partial",
    "CalCore.C45_negative_counterexample",
    "CalCore.C45_stays_partial",
    "CalCore.C45_import_counterexample"
   ],
   "note": "false for negative durations and for re-imported DATE events without end (C45_negative_counterexample, C45_import_counterexample); proved for histories with proper data, imports included."
  },
  {
   "property": "C46",
   "status": "proved",
   "theorems": [
    "CalCore.C46_foreign",
    "CalCore.C46_reachable"
   ],
   "note": "For every store reachable by any history of operations as well; also when the import raises half-way (no assumption on the result)."
  },
  {
   "property": "C47",
   "status": "proved",
   "theorems": [
    "CalCore.C47_exact",
    "CalCore.C47_no_deletion"
   ],
   "note": "When the import returns. Subscribers are not modelled."
  },
  {
   "property": "C48",
   "status": "partial",
   "theorems": [
    "CalCore.C48_twice_partial",
    "CalCore.C48_birthday_counterexample",
    "CalCore.C48_duplicate_counterexample"
   ],
   "note": "False in general: a DATE start without DTEND/DURATION gets one day when new and zero when imported again (C48_birthday_counterexample), and two components with the same uid alternate (C48_duplicate_counterexample). The partial theorem covers data whose uids are distinct and whose new all-day events are whole days."
  },
  {
   "property": "C49",
   "status": "partial",
   "theorems": [
    "CalCore.C49_rule_exact",
    "CalCore.C49_round_trip_partial",
    "CalCore.C49_counterexample"
   ],
   "note": "False in general: weekdays, monthly kind and exceptions of a rule are lost and an empty document becomes None (C49_counterexample). The partial theorem covers every event whose rule has no more than kind, interval, count and until, a proper all-day interval and a non-empty document. C49_rule_exact says which rules survive exactly."
  },
  {
   "property": "C50",
   "status": "partial",
   "theorems": [
    "CalCore.C50_own_export_partial",
    "CalCore.C50_counterexample"
   ],
   "note": "False in general: re-importing makes the main attendee organizer of events organized by others (C50_counterexample). The partial theorem covers calendars showing only exportable events that the main attendee organizes and accepted."
  },
  {
   "property": "C51",
   "status": "proved",
   "theorems": [
    "CalCore.C51_private",
    "CalCore.C51_nothing_else"
   ],
   "note": ""
  },
  {
   "property": "C52",
   "status": "proved",
   "theorems": [
    "CalCore.C52_meaning",
    "CalCore.C52_unique",
    "CalCore.C52_new_event"
   ],
   "note": ""
  },
  {
   "property": "C53",
   "status": "partial",
   "theorems": [
    "CalCore.C53_unchanged",
    "CalCore.C53_idempotent",
    "CalCore.C53_content",
    "CalCore.C53_repaired_partial",
    "CalCore.C53_counterexample"
   ],
   "note": "The first half is false (C53_counterexample): the test looks only at the first newline. The partial theorem says exactly when the result is right; C53_unchanged, C53_idempotent and C53_content hold for every text."
  },
  {
   "property": "C54",
   "status": "partial",
   "theorems": [
    "CalCore.C54_after_partial",
    "CalCore.C54_exactly_partial",
    "CalCore.C54_false_partial",
    "CalCore.C54_true_partial",
    "CalCore.C54_role_counterexample",
    "CalCore.C54_spurious_counterexample",
    "CalCore.C54_raise_counterexample",
    "CalCore.C54_stale_counterexample"
   ],
   "note": "False in general (four counterexamples: a changed role is not noticed; a modification is announced that does not happen; no organizer raises; attendees absent from the specification stay). The partial theorems give the exact conditions."
  },
  {
   "property": "C55",
   "status": "partial",
   "theorems": [
    "CalCore.C55_cmp_partial",
    "CalCore.C55_uid_counterexample"
   ],
   "note": "false: __cmp__ compares self.unique_id with itself, so events with the same start compare equal (C55_uid_counterexample)."
  },
  {
   "property": "C56",
   "status": "proved",
   "theorems": [
    "CalCore.C56_round",
    "CalCore.C56_least"
   ],
   "note": ""
  },
  {
   "property": "C57",
   "status": "partial",
   "theorems": [
    "CalCore.C57_text_partial",
    "CalCore.C57_counterexample",
    "CalCore.C57_1900_counterexample"
   ],
   "note": "False for a count of zero and a datetime until; years before 1900 raise (counterexamples). C57_text_partial covers every pair of rules without these."
  },
  {
   "property": "C58",
   "status": "proved",
   "theorems": [
    "CalCore.C58_calendar_union",
    "CalCore.C58_empty",
    "CalCore.C58_add_remove",
    "CalCore.C58_add_view"
   ],
   "note": ""
  },
  {
   "property": "C59",
   "status": "partial",
   "theorems": [
    "CalCore.C59_blocked_return_partial",
    "CalCore.C59_queries_return_partial",
    "CalCore.C59_feb29_counterexample",
    "CalCore.C59_duration_counterexample",
    "CalCore.C59_interval_counterexample"
   ],
   "note": "proved for events with a duration, interval at most 7800, not yearly on 29 February etc.; false otherwise (three counterexamples)"
  },
  {
   "property": "C60",
   "status": "partial",
   "theorems": [
    "CalCore.C60_day_view",
    "CalCore.C60_zero_length_partial",
    "CalCore.C60_midnight_counterexample"
   ],
   "note": "false for events of length zero at midnight (C60_midnight_counterexample), which no day view shows; proved for positive length and for length zero at other times."
  },
  {
   "property": "C61",
   "status": "proved",
   "theorems": [
    "CalCore.C61_seconds",
    "CalCore.C61_iso8601",
    "CalCore.C61_shape",
    "CalCore.C61_distinct",
    "CalCore.C61_created"
   ],
   "note": ""
  },
  {
   "property": "C62",
   "status": "partial",
   "theorems": [
    "CalCore.C62_partial",
    "CalCore.C62_prefix_partial",
    "CalCore.C62_counterexample"
   ],
   "note": "False: events before the failing one stay imported (C62_counterexample). The partial theorems: if the period query or the parser raises, nothing changes; otherwise the store is as after importing the components before the failing one, except for the event of the failing component (C62_prefix_partial)."
  },
  {
   "property": "C63",
   "status": "partial",
   "theorems": [
    "CalCore.C63_exceptions_partial",
    "CalCore.C63_apply_partial",
    "CalCore.C63_no_counterexample"
   ],
   "note": "All classes but NoRecurrenceRule, which ignores exceptions (counterexample)."
  },
  {
   "property": "C64",
   "status": "partial",
   "theorems": [
    "CalCore.C64_count_partial",
    "CalCore.C64_no_counterexample"
   ],
   "note": "All classes but NoRecurrenceRule (counterexample), for every prefix of the generation and every rule, validated or not."
  },
  {
   "property": "C65",
   "status": "partial",
   "theorems": [
    "CalCore.C65_until_partial",
    "CalCore.C65_no_counterexample"
   ],
   "note": "All classes but NoRecurrenceRule (counterexample); equality of dates and of the way the generation ends."
  },
  {
   "property": "C66",
   "status": "partial",
   "theorems": [
    "CalCore.C66_multiple_partial",
    "CalCore.C66_feb29_counterexample"
   ],
   "note": "False for yearly rules on 29 February (counterexample); proved for all else."
  },
  {
   "property": "C67",
   "status": "partial",
   "theorems": [
    "CalCore.C67_weekly_daily",
    "CalCore.C67_alldays_daily",
    "CalCore.C67_weekdays_set",
    "CalCore.C67_yearly_monthly_partial",
    "CalCore.C67_feb29_counterexample",
    "CalCore.C67_basic_daily"
   ],
   "note": "All proved; the yearly/monthly equivalence is false on 29 February (counterexample)."
  },
  {
   "property": "C68",
   "status": "partial",
   "theorems": [
    "CalCore.C68_following_partial",
    "CalCore.C68_weekly_counterexample",
    "CalCore.C68_weekday_counterexample"
   ],
   "note": "Proved except for weekly rules whose start is not on a listed weekday and monthly weekday rules starting in the fifth week, where it is false (counterexamples)."
  },
  {
   "property": "C69",
   "status": "partial",
   "theorems": [
    "CalCore.C69_adjacent_exact_partial",
    "CalCore.C69_adjacent_partial",
    "CalCore.C69_border_counterexample"
   ],
   "note": "False for an occurrence of length zero at the cut (C69_border_counterexample); everything else proved, with the order of the results. Rules must have positive intervals (imported negative intervals are excluded, see C23)."
  },
  {
   "property": "C70",
   "status": "partial",
   "theorems": [
    "CalCore.C70_day_views_partial",
    "CalCore.C70_empty_counterexample"
   ],
   "note": "Proved for segments of positive length; false for the empty segments of C22 (C70_empty_counterexample)."
  },
  {
   "property": "C71",
   "status": "partial",
   "theorems": [
    "CalCore.C71_events_occurrences_partial",
    "CalCore.C71_first_partial",
    "CalCore.C71_recurring_counterexample"
   ],
   "note": "Proved for events that do not recur, in stores with any other events; false for recurring events (C71_recurring_counterexample), which are listed exactly if their first occurrence is shown (C71_first_partial)."
  },
  {
   "property": "C72",
   "status": "proved",
   "theorems": [
    "CalCore.C72_blocked_private",
    "CalCore.C72_free_private"
   ],
   "note": ""
  },
  {
   "property": "C73",
   "status": "proved",
   "theorems": [
    "CalCore.C73_blocked_neutral",
    "CalCore.C73_create_neutral"
   ],
   "note": ""
  },
  {
   "property": "C74",
   "status": "proved",
   "theorems": [
    "CalCore.C74_commute",
    "CalCore.C74_generated_counterexample"
   ],
   "note": "C74_generated_counterexample shows why creations without an id are excluded."
  },
  {
   "property": "C75",
   "status": "proved",
   "theorems": [
    "CalCore.C75_weeks_tile",
    "CalCore.C75_weeks_consecutive"
   ],
   "note": ""
  },
  {
   "property": "C76",
   "status": "partial",
   "theorems": [
    "CalCore.C76_clone_partial",
    "CalCore.C76_clone_counterexample",
    "CalCore.C76_empty_counterexample",
    "CalCore.C76_restrict"
   ],
   "note": "Proved part by part for parts that are unset or not given; false otherwise (C76_clone_counterexample: set parts win over arguments; C76_empty_counterexample: empty lists are lost)."
  },
  {
   "property": "C77",
   "status": "proved",
   "theorems": [
    "CalCore.C77_events",
    "CalCore.C77_occurrences"
   ],
   "note": ""
  },
  {
   "property": "C78",
   "status": "partial",
   "theorems": [
    "CalCore.C78_roles",
    "CalCore.C78_statuses_partial",
    "CalCore.C78_import_partial",
    "CalCore.C78_status_counterexample"
   ],
   "note": "Roles proved outright; statuses proved for histories whose specifications and imported data name documented statuses; false for other imported data (C78_status_counterexample)."
  },
  {
   "property": "C79",
   "status": "partial",
   "theorems": [
    "CalCore.C79_careful_partial",
    "CalCore.C79_import_partial"
   ],
   "note": "The restriction to careful input is the statement; named partial because C59 shows it false for other input."
  },
  {
   "property": "C80",
   "status": "partial",
   "theorems": [
    "CalCore.C80_source_map_partial",
    "CalCore.C80_find_counterexample"
   ],
   "note": "The map part is proved; the search functions never work (C80_find_counterexample)."
  },
  {
   "property": "C81",
   "status": "partial",
   "theorems": [
    "CalCore.C81_period_partial",
    "CalCore.C81_meant_partial",
    "CalCore.C81_period_counterexample"
   ],
   "note": "Exact description of when such a query returns; false in general (C81_period_counterexample)."
  },
  {
   "property": "C82",
   "status": "partial",
   "theorems": [
    "CalCore.C82_data_partial",
    "CalCore.C82_ignored_counterexample"
   ],
   "note": "Proved for uids that are new or shown by the calendar for the period and criteria of the import; other data are silently ignored (C82_ignored_counterexample). A new all-day event is covered by C45 and C52 as to its time."
  },
  {
   "property": "C83",
   "status": "proved",
   "theorems": [
    "CalCore.C83_order",
    "CalCore.C83_duplicate_counterexample"
   ],
   "note": "C83_duplicate_counterexample shows why the uids have to be different."
  },
  {
   "property": "C84",
   "status": "partial",
   "theorems": [
    "CalCore.C84_visible_partial",
    "CalCore.C84_lost_counterexample"
   ],
   "note": "Exact condition for being shown; false in general (C84_lost_counterexample)."
  },
  {
   "property": "C85",
   "status": "proved",
   "theorems": [
    "CalCore.C85_call",
    "CalCore.C85_history"
   ],
   "note": "Objects (addresses, aliasing) refined to the value model; without subscribers."
  },
  {
   "property": "C86",
   "status": "proved",
   "theorems": [
    "CalCore.C86_store",
    "CalCore.C86_roles"
   ],
   "note": "All clients and subscribers, as programs that may depend on everything they see and catch exceptions."
  },
  {
   "property": "C87",
   "status": "proved",
   "theorems": [
    "CalCore.C87_truthful",
    "CalCore.C87_subscriber"
   ],
   "note": ""
  },
  {
   "property": "C88",
   "status": "partial",
   "theorems": [
    "CalCore.C88_looks",
    "CalCore.C88_raises_partial",
    "CalCore.C88_invite_counterexample"
   ],
   "note": "Proved for subscribers that only look, and for create, delete and setParticipationStatus with subscribers that raise. False for invite, which stops between status and role (C88_invite_counterexample)."
  },
  {
   "property": "C89",
   "status": "partial",
   "theorems": [
    "CalCore.C89_answer_partial",
    "CalCore.C89_refusal_counterexample"
   ],
   "note": "Proved for answers that are documented statuses; false for an answer by removal (C89_refusal_counterexample)."
  },
  {
   "property": "C90",
   "status": "partial",
   "theorems": [
    "CalCore.C90_method_partial",
    "CalCore.C90_detached_partial",
    "CalCore.C90_delete_partial",
    "CalCore.C90_stale_counterexample"
   ],
   "note": "Proved for all method calls, and for deleteEvent when the object is the stored one; deleting a stale object deletes its successor under the same uid (C90_stale_counterexample)."
  },
  {
   "property": "C91",
   "status": "partial",
   "theorems": [
    "CalCore.C91_nesting_partial",
    "CalCore.C91_toggle_counterexample"
   ],
   "note": "Proved for subscribers whose answers descend in some ranking of the kinds of notifications; false in general (C91_toggle_counterexample)."
  },
  {
   "property": "C92",
   "status": "proved",
   "theorems": [
    "CalCore.C92_repr"
   ],
   "note": "Text of the repr modelled character by character; integers are plain ints (no trailing L), datetimes without seconds or microseconds are printed in the short form as Python does."
  },
  {
   "property": "C93",
   "status": "proved",
   "theorems": [
    "CalCore.C93_centuries",
    "CalCore.C93_daily",
    "CalCore.C93_weekly"
   ],
   "note": "Only the dates are compared, not how the generation ends. 400 days are left free at the end of the calendar, where drifting monthly rules are cut off."
  },
  {
   "property": "C94",
   "status": "proved",
   "theorems": [
    "CalCore.C94_busy",
    "CalCore.C94_busy_fresh",
    "CalCore.C94_slot",
    "CalCore.C94_cancel",
    "CalCore.C94_replaced_counterexample"
   ],
   "note": "C94_busy holds for every creation; the free-time and cancelling theorems need an id that was not in use (C94_replaced_counterexample)."
  },
  {
   "property": "C95",
   "status": "proved",
   "theorems": [
    "CalCore.C95_only_data"
   ],
   "note": ""
  },
  {
   "property": "C96",
   "status": "partial",
   "theorems": [
    "CalCore.C96_mirror_partial",
    "CalCore.C96_foreign_counterexample"
   ],
   "note": "Proved for exported events that the exported properties say completely (C49) and uids that the second store does not use for events its calendar does not show (C96_foreign_counterexample)."
  },
  {
   "property": "C97",
   "status": "proved",
   "theorems": [
    "CalCore.C97_copy",
    "CalCore.C97_again"
   ],
   "note": "C97_copy: exact description of the copy; C97_again: the copy of the copy."
  },
  {
   "property": "C98",
   "status": "partial",
   "theorems": [
    "CalCore.C98_reads_partial",
    "CalCore.C98_written",
    "CalCore.C98_no_frequency",
    "CalCore.C98_zero",
    "CalCore.C98_negative_counterexample"
   ],
   "note": "Not for rules with a count below 1 (a negative count gives a text no reader accepts) or a datetime until."
  },
  {
   "property": "C99",
   "status": "partial",
   "theorems": [
    "CalCore.C99_general",
    "CalCore.C99_meaning_partial",
    "CalCore.C99_until_counterexample",
    "CalCore.C99_weekly_counterexample",
    "CalCore.C99_feb29_counterexample",
    "CalCore.C99_fifth_counterexample",
    "CalCore.C99_last_counterexample",
    "CalCore.C99_9999_counterexample"
   ],
   "note": "Partial: false for until with events not at midnight, weekly rules without the weekday of the start, 29 February, fifth weekdays, last-weekday rules not starting in the last week, and December 9999; each has a counterexample. C99_general gives the exact relation for all plain rules with any until and enddate."
  },
  {
   "property": "C100",
   "status": "partial",
   "theorems": [
    "CalCore.C100_blocked_partial",
    "CalCore.C100_free_partial",
    "CalCore.C100_backwards_counterexample",
    "CalCore.C100_negative_counterexample"
   ],
   "note": "False for rules of negative interval, which can be imported, and (free periods) for events of negative duration (counterexamples); proved for all other stores."
  },
  {
   "property": "C101",
   "status": "partial",
   "theorems": [
    "CalCore.C101_blocked",
    "CalCore.C101_free_partial",
    "CalCore.C101_negative_counterexample"
   ],
   "note": "Blocked time: every store. Free time: every store without events of negative duration, for which it is false (counterexample)."
  },
  {
   "property": "C102",
   "status": "partial",
   "theorems": [
    "CalCore.C102_blocked",
    "CalCore.C102_free_partial",
    "CalCore.C102_negative_counterexample"
   ],
   "note": "Blocked time: every store. Free time: every store without events of negative duration, for which it is false (counterexample)."
  },
  {
   "property": "C103",
   "status": "partial",
   "theorems": [
    "CalCore.C103_monthly",
    "CalCore.C103_weekly_partial",
    "CalCore.C103_monthly_form_partial",
    "CalCore.C103_both_counterexample",
    "CalCore.C103_imported",
    "CalCore.C103_status",
    "CalCore.C103_access",
    "CalCore.C103_states_partial",
    "CalCore.C103_cancelled_counterexample"
   ],
   "note": "Vocabularies, constructors and imports agree; false for forms with both count and until and for imported status CANCELLED (counterexamples)."
  },
  {
   "property": "C104",
   "status": "partial",
   "theorems": [
    "CalCore.C104_announced_partial",
    "CalCore.C104_replica_partial",
    "CalCore.C104_silent_counterexample",
    "CalCore.C104_raise_counterexample"
   ],
   "note": "All calls that return except setOnObject, alldayAdjust and setParticipationRole, which are silent; calls that raise can be silent too (counterexamples)."
  },
  {
   "property": "C105",
   "status": "partial",
   "theorems": [
    "CalCore.C105_chain_partial",
    "CalCore.C105_gap_counterexample"
   ],
   "note": "All calls that return; false for calls that raise (counterexample)."
  },
  {
   "property": "C106",
   "status": "partial",
   "theorems": [
    "CalCore.C106_single",
    "CalCore.C106_when",
    "CalCore.C106_bounds_partial",
    "CalCore.C106_last_month_counterexample",
    "CalCore.C106_views",
    "CalCore.C106_blocked",
    "CalCore.C106_listed_counterexample"
   ],
   "note": "False in December 9999 for the last-weekday rule, and for getEvents, which lists such events (counterexamples)."
  },
  {
   "property": "C107",
   "status": "proved",
   "theorems": [
    "CalCore.C107_run",
    "CalCore.C107_step",
    "CalCore.C107_queries",
    "CalCore.C107_attendee",
    "CalCore.C107_injective_counterexample"
   ],
   "note": "All calls and queries of the model; false if two ids become one (counterexample)."
  },
  {
   "property": "C108",
   "status": "proved",
   "theorems": [
    "CalCore.C108_own_history",
    "CalCore.C108_interleave",
    "CalCore.C108_no_trace",
    "CalCore.C108_generated_counterexample"
   ],
   "note": "All calls about given uids; imports and generated ids depend on other events (counterexample)."
  },
  {
   "property": "C109",
   "status": "partial",
   "theorems": [
    "CalCore.C109_stored_partial",
    "CalCore.C109_outcome_partial",
    "CalCore.C109_queries",
    "CalCore.C109_import_counterexample"
   ],
   "note": "All calls except imports, for which it is false (counterexample); all queries without categories."
  },
  {
   "property": "C110",
   "status": "proved",
   "theorems": [
    "CalCore.C110_invite_remove",
    "CalCore.C110_status_back",
    "CalCore.C110_role_back",
    "CalCore.C110_removal_counterexample"
   ],
   "note": "Removing an attendee cannot be undone by setting the status again (counterexample)."
  },
  {
   "property": "C111",
   "status": "proved",
   "theorems": [
    "CalCore.C111_events",
    "CalCore.C111_occurrences",
    "CalCore.C111_segmented",
    "CalCore.C111_blocked",
    "CalCore.C111_free",
    "CalCore.C111_weekday_counterexample"
   ],
   "note": "Whenever both queries return and the moved period ends more than 400 days before the end of the calendar; weekly rules moved by single days are refuted (counterexample)."
  },
  {
   "property": "C112",
   "status": "proved",
   "theorems": [
    "CalCore.C112_calls",
    "CalCore.C112_getEvents",
    "CalCore.C112_unbounded",
    "CalCore.C112_getOccurrences",
    "CalCore.C112_export",
    "CalCore.C112_calendar_export",
    "CalCore.C112_calendar"
   ],
   "note": "The calls are described by equivalences; getEvents and getOccurrences by what their exceptions imply (which of several faulty events is met first depends on the order of the store); occurrences for regular events (C24)."
  },
  {
   "property": "C113",
   "status": "proved",
   "theorems": [
    "CalCore.C113_read",
    "CalCore.C113_new",
    "CalCore.C113_returns",
    "CalCore.C113_refused",
    "CalCore.C113_uid"
   ],
   "note": "After the parser has returned components (the text syntax is the library's). For stored events only the two implications are stated: a faulty attendee need not be noticed when nothing else has changed (C54)."
  },
  {
   "property": "C114",
   "status": "proved",
   "theorems": [
    "CalCore.C114_history",
    "CalCore.C114_answers",
    "CalCore.C114_none",
    "CalCore.C114_foreign",
    "CalCore.C114_blocked"
   ],
   "note": "Storages are addressed by their position in the order of creation; a client can only refer to storages that exist."
  },
  {
   "property": "C115",
   "status": "proved",
   "theorems": [
    "CalCore.C115_maker",
    "CalCore.C115_histories",
    "CalCore.C115_at_counterexample",
    "CalCore.C115_same_counterexample"
   ],
   "note": "Counterexamples: host names with at signs, and storages of the same name on the same host."
  },
  {
   "property": "C116",
   "status": "proved",
   "theorems": [
    "CalCore.C116_call",
    "CalCore.C116_history",
    "CalCore.C116_queries",
    "CalCore.C116_calendars",
    "CalCore.C116_blocked",
    "CalCore.C116_exception_counterexample",
    "CalCore.C116_main_counterexample",
    "CalCore.C116_log_counterexample"
   ],
   "note": "ShuffledRun reorders the dictionaries before each call. The order does decide which of several exceptions a query raises, who is the main attendee of a calendar (the organizer of what it imports) and the order of the deletions of a synchronizing import: three counterexamples."
  },
  {
   "property": "C117",
   "status": "proved",
   "theorems": [
    "CalCore.C117_eval",
    "CalCore.C117_only"
   ],
   "note": "The reader of Python expressions is part of the specification: integers, None, strings without escapes, tuples and calls; the names datetime.date, datetime.datetime and the rule classes are taken to be in scope."
  },
  {
   "property": "C118",
   "status": "proved",
   "theorems": [
    "CalCore.C118_blocked",
    "CalCore.C118_free",
    "CalCore.C118_periods",
    "CalCore.C118_reminder_counterexample"
   ],
   "note": "An event without length does not make anybody busy but yields an empty blocked period that cuts the free time in two (C118_reminder_counterexample), hence the condition for identical lists of free periods. Free time: no negative durations."
  },
  {
   "property": "C119",
   "status": "partial",
   "theorems": [
    "CalCore.C119_list_partial",
    "CalCore.C119_remove_partial",
    "CalCore.C119_set_partial",
    "CalCore.C119_sort_partial",
    "CalCore.C119_identity_counterexample"
   ],
   "note": "False in all three respects (C119_identity_counterexample), because __cmp__ compares only the starts. The partial theorems say exactly what in, remove, sets and sort do. Python lists and sets are modelled by their documented behaviour; the hash of strings is a parameter."
  },
  {
   "property": "C120",
   "status": "proved",
   "theorems": [
    "CalCore.C120_events",
    "CalCore.C120_occurrences",
    "CalCore.C120_segmented",
    "CalCore.C120_calendar",
    "CalCore.C120_blocked",
    "CalCore.C120_export",
    "CalCore.C120_each"
   ],
   "note": ""
  },
  {
   "property": "C121",
   "status": "partial",
   "theorems": [
    "CalCore.C121_new_partial",
    "CalCore.C121_apply_partial",
    "CalCore.C121_enddate_partial",
    "CalCore.C121_typed_partial",
    "CalCore.C121_failing_partial",
    "CalCore.C121_accepts_partial",
    "CalCore.C121_refuses",
    "CalCore.C121_interval_counterexample",
    "CalCore.C121_exception_counterexample",
    "CalCore.C121_count_counterexample"
   ],
   "note": "False: strings are accepted as interval and count (in Python 2 a string is greater than every number), datetimes as exceptions, anything as until. Proved: exactly which arguments are accepted; an accepted object either behaves exactly as the typed rule it stands for (datetimes among the exceptions do not count), or yields at most one date and ends; for arguments of the documented types the untyped and the typed model agree."
  },
  {
   "property": "C122",
   "status": "partial",
   "theorems": [
    "CalCore.C122_methods_partial",
    "CalCore.C122_methods_counterexample",
    "CalCore.C122_exactly",
    "CalCore.C122_errors",
    "CalCore.C122_attributes_partial",
    "CalCore.C122_attributes_counterexample",
    "CalCore.C122_tables_as_written"
   ],
   "note": "Proved for all promised methods except ten, with the exact list: export of an event specification, setStorage(storage_id=), createEvent and getFreePeriods(minimum_duration=) of the storage manager, clone(attendee=), getStorageId and getEventId of events, import_ (declared with self), getAttendeeTypes (defined without self), replace of monthly rules (fifth positional argument). For each of them an allowed call is shown that fails or binds a wrong parameter. Attributes: all but unique_id of specifications and attendee of search criteria. C122_tables_as_written: the signatures are those of the source text (mechanically extracted)."
  },
  {
   "property": "C123",
   "status": "partial",
   "theorems": [
    "CalCore.C123_dates_partial",
    "CalCore.C123_once",
    "CalCore.C123_until_counterexample",
    "CalCore.C123_exdate_counterexample",
    "CalCore.C123_workdays_counterexample",
    "CalCore.C123_weekly_counterexample",
    "CalCore.C123_every_counterexample",
    "CalCore.C123_other_day_counterexample",
    "CalCore.C123_several_counterexample",
    "CalCore.C123_bymonthday_counterexample",
    "CalCore.C123_fifth_counterexample",
    "CalCore.C123_feb29_counterexample"
   ],
   "note": "Proved for recurrences whose BY parts agree with the start (Spec.Understood), without UNTIL times, outside EXDATE, and outside December 9999 for last weekdays. For every other case there is a counterexample: UNTIL with a time (the event never takes place), EXDATE (ignored), BYDAY in daily rules (ignored), weekly BYDAY without the day of the start, monthly BYDAY without ordinal, with another day or with several days, BYMONTHDAY (ignored), fifth weekday, 29 February."
  },
  {
   "property": "C124",
   "status": "partial",
   "theorems": [
    "CalCore.C124_shown_partial",
    "CalCore.C124_twice_counterexample"
   ],
   "note": "Proved for components with different uids that are new or were shown before, whose recurrence is understood (C123) and has no EXDATE, for queries up to November 9999; all-day components that are new last a number of days, updates have a DTEND or DURATION. Counterexample: importing an all-day event without DTEND twice makes it disappear from its day, because only new events are adjusted."
  },
  {
   "property": "C125",
   "status": "partial",
   "theorems": [
    "CalCore.C125_says_partial",
    "CalCore.C125_lost_counterexample",
    "CalCore.C125_until_counterexample",
    "CalCore.C125_allday_counterexample"
   ],
   "note": "Proved for events without a rule and for daily, yearly (not 29 February), monthly by day of the month, and weekly rules on the weekday of the start, without exceptions and without an until with a time; all-day events are whole days. Counterexamples: weekdays, exceptions and monthly kinds are not exported; an until with a time; all-day events with hours."
  },
  {
   "property": "C126",
   "status": "partial",
   "theorems": [
    "CalCore.C126_fields",
    "CalCore.C126_event_partial",
    "CalCore.C126_occurrences",
    "CalCore.C126_rule_partial",
    "CalCore.C126_made_partial",
    "CalCore.C126_weekly_counterexample",
    "CalCore.C126_import_counterexample",
    "CalCore.C126_edit_counterexample"
   ],
   "note": "Proved for histories whose calls are given documented data (texts without line breaks, statuses and access indicators of the vocabularies, a duration), for occurrences, and for all rules but weekly ones. Counterexamples: no weekly rule is accepted (weekdays are stored as a tuple, the field wants a set); imports store CANCELLED, any class, line breaks, interval 0, until with a time; edits store events without duration."
  },
  {
   "property": "C127",
   "status": "proved",
   "theorems": [
    "CalCore.C127_segments",
    "CalCore.C127_segmented",
    "CalCore.C127_blocked",
    "CalCore.C127_free"
   ],
   "note": "Exact: which exception and when, with the conditions stated on starts and durations. The intermediate notion NeedsNextDay is arithmetic on instants only. Regular stores (valid start, interval at least 1, until a date) are needed for the part about occurrences only; the part about blocked and free periods holds of every store."
  },
  {
   "property": "C128",
   "status": "partial",
   "theorems": [
    "CalCore.C128_values",
    "CalCore.C128_frame",
    "CalCore.C128_own_partial",
    "CalCore.C128_one_specification_counterexample",
    "CalCore.C128_one_set_counterexample"
   ],
   "note": "False in general: events made from one specification, or from specifications made with one set or rule, share it (counterexamples). C128_values: without changes in place the values are right in every history. C128_frame: exactly the events with the same set object change. C128_own_partial: clients that make new objects for every call and transfer each specification at most once never see sharing, changes in place included."
  },
  {
   "property": "C129",
   "status": "partial",
   "theorems": [
    "CalCore.C129_list",
    "CalCore.C129_import",
    "CalCore.C129_nobody_partial",
    "CalCore.C129_counterexample"
   ],
   "note": "False in general: the default list is shared by all specifications made without attendees, so an append to one is seen by all of them, later ones and imports included (C129_counterexample). C129_list and C129_import give the exact contents in every history; C129_nobody_partial: empty as long as nobody appends to such a list."
  },
  {
   "property": "C130",
   "status": "proved",
   "theorems": [
    "CalCore.C130_removeOverlaps",
    "CalCore.C130_sorts_argument",
    "CalCore.C130_getWeeksInYear",
    "CalCore.C130_weeknr2datetime"
   ],
   "note": "About the syntax trees in Verif/Source, translated mechanically from the source text, and the interpreter in Verif/Model/Lang.lean. `Gives f args r`: the call gives r for all large enough bounds on loop iterations and call depth."
  },
  {
   "property": "C131",
   "status": "proved",
   "theorems": [
    "CalCore.C131_weekspan",
    "CalCore.C131_monthindex_pos",
    "CalCore.C131_monthindex_neg",
    "CalCore.C131_monthindex_december_9999",
    "CalCore.C131_new",
    "CalCore.C131_new_weekly",
    "CalCore.C131_new_monthly",
    "CalCore.C131_replace"
   ],
   "note": "As for C130. Method resolution follows the class bases in the text. The rule object is represented with its attributes in the order __init__ sets them."
  },
  {
   "property": "C132",
   "status": "proved",
   "theorems": [
    "CalCore.C132_apply",
    "CalCore.C132_loops_iff",
    "CalCore.C132_same"
   ],
   "note": "As for C130. A generator is run to its end when called; `Loops` says that it yields without end, however large the bounds are. C132_same transfers everything proved of Rule.apply to the text."
  },
  {
   "property": "C133",
   "status": "proved",
   "theorems": [
    "CalCore.C133_inPeriod",
    "CalCore.C133_sameDay",
    "CalCore.C133_roundtimedelta",
    "CalCore.C133_expand",
    "CalCore.C133_expand_same",
    "CalCore.C133_segments",
    "CalCore.C133_segments_same"
   ],
   "note": "As for C130: about running the syntax trees made from the source text. Objects are represented as RepresentCal.lean says. C133_expand_same and C133_segments_same transfer everything proved of the model's functions (including when they raise, C24, C127)."
  },
  {
   "property": "C134",
   "status": "proved",
   "theorems": [
    "CalCore.C134_participation",
    "CalCore.C134_match",
    "CalCore.C134_criteria",
    "CalCore.C134_getEvent",
    "CalCore.C134_getEvents",
    "CalCore.C134_getOccurrences",
    "CalCore.C134_same"
   ],
   "note": "As for C133. `Listing.Faithful`: a set is represented by any list of exactly its elements. C134_same transfers everything proved of the queries, and covers getOccurrencesSegmented."
  },
  {
   "property": "C135",
   "status": "proved",
   "theorems": [
    "CalCore.C135_same",
    "CalCore.C135_blocked",
    "CalCore.C135_free"
   ],
   "note": "As for C133. C135_same transfers everything proved of getBlockedPeriods and getFreePeriods (C25-C31, C127). The statements inherit what C26 and C29 say about cancelled events and the first and last day."
  },
  {
   "property": "C136",
   "status": "proved",
   "theorems": [
    "CalCore.C136_clone",
    "CalCore.C136_attendee_events",
    "CalCore.C136_organized",
    "CalCore.C136_calendar_events",
    "CalCore.C136_calendar_event",
    "CalCore.C136_day_events",
    "CalCore.C136_last_day",
    "CalCore.C136_same",
    "CalCore.C136_ids",
    "CalCore.C136_source",
    "CalCore.C136_attendees"
   ],
   "note": "As for C134. `For`/`ForOrganizer` state which criteria are asked; C136_same covers the queries for occurrences by day (getOccurrences, getOccurrencesSegmented, getOccurrencesInDay) by equality with the model functions of C24, C37 and C127."
  },
  {
   "property": "C137",
   "status": "proved",
   "theorems": [
    "CalCore.C137_setStatus_same",
    "CalCore.C137_setStatus",
    "CalCore.C137_removeStatus",
    "CalCore.C137_setRole",
    "CalCore.C137_invite",
    "CalCore.C137_allday",
    "CalCore.C137_allday_overflow",
    "CalCore.C137_specification",
    "CalCore.C137_setOnObject",
    "CalCore.C137_willModify",
    "CalCore.C137_event",
    "CalCore.C137_event_overflow",
    "CalCore.C137_create",
    "CalCore.C137_delete",
    "CalCore.C137_calendar",
    "CalCore.C137_people",
    "CalCore.C137_person"
   ],
   "note": "As for C134. Notifications are the list of objects given to zope.event notify; createEvent with **kw and the creation without an id are not translated. `badEntry`, `entriesSet`, `statusAfter`, `HasAttributes`, `Fulfilled` and `daysTaken` state the outcome without the model functions. C137_people assumes that the listing gives the new attendee the attributes it is made with."
  },
  {
   "property": "C138",
   "status": "proved",
   "theorems": [
    "CalCore.C138_rule",
    "CalCore.C138_float",
    "CalCore.C138_times",
    "CalCore.C138_times_anonymous",
    "CalCore.C138_categories",
    "CalCore.C138_repair",
    "CalCore.C138_spec",
    "CalCore.C138_default"
   ],
   "note": "As for C134. A component is what the icalendar library parsed: `Parsed` (Spec/RepresentImport) says what decoded, get_inline, has_key and indexing see; a time with an offset carries its local time, or the exception, which stands for LocalTimezone. `Asks`, `TimesSay`, `RuleSays` and the failures of C113 state the outcome without the model functions. import_, _importExistingEvent and _importNewEvent are not translated: they change an event through an alias of what is in the store."
  },
  {
   "property": "C139",
   "status": "partial",
   "theorems": [
    "CalCore.C139_date",
    "CalCore.C139_datetime",
    "CalCore.C139_text",
    "CalCore.C139_reads_partial",
    "CalCore.C139_meaning_partial",
    "CalCore.C139_eq",
    "CalCore.C139_same_text_partial",
    "CalCore.C139_same_text_counterexample"
   ],
   "note": "As for C130; partial because what it says of C57, C98 and C99 is false there: a count of zero or below, a datetime as `until`, weekly rules that do not start on one of their days, 29 February and the like (Plain). C139_text, C139_date, C139_datetime and C139_eq are complete; C139_reads_partial, C139_meaning_partial and C139_same_text_partial have the hypotheses of C98, C99 and C57."
  },
  {
   "property": "C140",
   "status": "partial",
   "theorems": [
    "CalCore.C140_export",
    "CalCore.C140_default",
    "CalCore.C140_errors",
    "CalCore.C140_private",
    "CalCore.C140_says_partial",
    "CalCore.C140_round_trip_partial"
   ],
   "note": "As for C130 and C138. Partial because the round trip (C49) and the times said (C125) are false of other events: weekdays, kinds of monthly rules and exceptions are not exported, all-day events are cut to dates. C140_export, C140_errors, C140_default and C140_private are complete. `reread` states what is assumed of the iCalendar library between writing and reading: names in capitals, values unchanged, dates, categories and rules in the form in which they are parsed."
  },
  {
   "property": "C141",
   "status": "partial",
   "theorems": [
    "CalCore.C141_export",
    "CalCore.C141_errors",
    "CalCore.C141_default",
    "CalCore.C141_says_partial"
   ],
   "note": "As for C130 and C140. Partial because what the components say is false of the events excluded in C125: weekdays, kinds of monthly rules and exceptions are not exported, all-day events are cut to dates. C141_export, C141_errors and C141_default are complete. The text that the icalendar library writes is represented by the properties and components that it writes."
  },
  {
   "property": "C142",
   "status": "partial",
   "theorems": [
    "CalCore.C142_repr",
    "CalCore.C142_hash",
    "CalCore.C142_event_hash",
    "CalCore.C142_cmp_partial",
    "CalCore.C142_cmp_counterexample",
    "CalCore.C142_cmp_other"
   ],
   "note": "Partial: for events that start together the id of the first is compared with itself, so __cmp__ gives 0 whatever the ids are (C142_cmp_counterexample). The rest holds; the result of hash() is represented by what is hashed."
  },
  {
   "property": "C143",
   "status": "proved",
   "theorems": [
    "CalCore.C143_storage",
    "CalCore.C143_made",
    "CalCore.C143_replace",
    "CalCore.C143_source",
    "CalCore.C143_iso8601",
    "CalCore.C143_id",
    "CalCore.C143_create",
    "CalCore.C143_keywords",
    "CalCore.C143_clock"
   ],
   "note": "The clock and the fully qualified name of the machine are global variables of the interpreted program (Source.world). Keyword arguments are a dictionary; that a specification can be made from them is a hypothesis of C143_keywords about the interpreted constructor."
  },
  {
   "property": "C144",
   "status": "partial",
   "theorems": [
    "CalCore.C144_factory",
    "CalCore.C144_vocabularies",
    "CalCore.C144_period",
    "CalCore.C144_inPeriod_partial",
    "CalCore.C144_inPeriod_counterexample"
   ],
   "note": "Partial: Period makes a pair of a start and a length, and inPeriod raises TypeError for it unless the event has ended by the start (C144_inPeriod_partial, C144_inPeriod_counterexample); the vocabularies are as stated."
  },
  {
   "property": "C145",
   "status": "proved",
   "theorems": [
    "CalCore.C145_same",
    "CalCore.C145_nothing",
    "CalCore.C145_foreign",
    "CalCore.C145_deletions",
    "CalCore.C145_data",
    "CalCore.C145_announced"
   ],
   "note": "The parser is a parameter: it raises, returns None, or yields components whose properties are given (any dictionary that says what the VEvent says). A component's categories are listed in the order in which the interpreter lists that set (Component.listed), and the duration of a whole-day component fits in a timedelta (Component.fits)."
  },
  {
   "property": "C146",
   "status": "proved",
   "theorems": [
    "CalCore.C146_keywords",
    "CalCore.C146_create",
    "CalCore.C146_rejected"
   ],
   "note": "The attendee holds its storage manager and no attendee source. The dictionary of keywords afterwards (kw) is the callee's own; the theorem says nothing about it."
  },
  {
   "property": "C147",
   "status": "proved",
   "theorems": [
    "CalCore.C147_history",
    "CalCore.C147_call",
    "CalCore.C147_imports",
    "CalCore.C147_any_call",
    "CalCore.C147_subscriber",
    "CalCore.C147_own_id",
    "CalCore.C147_interleave"
   ],
   "note": "The components of an import must be representable (C145) and give durations of at most 999999999 days, as must the specifications: beyond that alldayAdjust raises OverflowError (C137_allday_overflow). Sound is kept by every call (Sound.usable) and holds of a new storage. An event that was got from the storage is the object stored there: the change made by its method is put into the storage manager by shareEvent, as for imports. C147_interleave is about calls that name their event."
  },
  {
   "property": "C148",
   "status": "proved",
   "theorems": [
    "CalCore.C148_frame",
    "CalCore.C148_created",
    "CalCore.C148_deleted",
    "CalCore.C148_status",
    "CalCore.C148_role",
    "CalCore.C148_invited"
   ],
   "note": "Specifications of creations and edits have durations of at most 999999999 days either way (Op.Ordinary), as in C147. C148_frame is about calls that name their event. The setters are read back only when they raise nothing; the statuses and roles for which they raise are C41 and C137."
  }
 ]
}