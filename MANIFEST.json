{
 "claims": [
  {
   "property": "C01",
   "status": "proved",
   "theorems": [
    "PySwitch.Props.C01_poll_iff",
    "PySwitch.Props.C01_spacing",
    "PySwitch.Props.C01_fires"
   ],
   "note": ""
  },
  {
   "property": "C02",
   "status": "proved",
   "theorems": [
    "PySwitch.Props.C02_update_once_in_order"
   ],
   "note": ""
  },
  {
   "property": "C03",
   "status": "proved",
   "theorems": [
    "PySwitch.Props.C03_listeners_once",
    "PySwitch.Props.C03_answer"
   ],
   "note": ""
  },
  {
   "property": "C04",
   "status": "proved",
   "theorems": [
    "PySwitch.Props.C04_bytes",
    "PySwitch.Props.C04_round_trip",
    "PySwitch.Props.C04_injective"
   ],
   "note": ""
  },
  {
   "property": "C05",
   "status": "proved",
   "theorems": [
    "PySwitch.Props.C05_stream"
   ],
   "note": ""
  },
  {
   "property": "C06",
   "status": "partial",
   "theorems": [
    "PySwitch.Props.C06_split_reads_safe_partial",
    "PySwitch.Props.C06_split_reads_complete_partial",
    "PySwitch.Props.C06_channel_messages_any_split_partial",
    "PySwitch.Props.C06_sysex_split_lost"
   ],
   "note": "Proved for every split of channel messages and every split that does not cut a SysEx message. The full claim is false of the code (C06_sysex_split_lost)."
  },
  {
   "property": "C07",
   "status": "proved",
   "theorems": [
    "PySwitch.Props.C07_send",
    "PySwitch.Props.C07_deliveries"
   ],
   "note": ""
  },
  {
   "property": "C08",
   "status": "proved",
   "theorems": [
    "PySwitch.Props.C08_poll",
    "PySwitch.Props.C08_reads",
    "PySwitch.Props.C08_run"
   ],
   "note": ""
  },
  {
   "property": "C09",
   "status": "proved",
   "theorems": [
    "PySwitch.Props.C09_returned",
    "PySwitch.Props.C09_conserved",
    "PySwitch.Props.C09_no_loss",
    "PySwitch.Props.C09_none",
    "PySwitch.Props.C09_no_error",
    "PySwitch.Props.C09_split"
   ],
   "note": ""
  },
  {
   "property": "C10",
   "status": "proved",
   "theorems": [
    "PySwitch.Props.C10_cycle",
    "PySwitch.Props.C10_tick_bound",
    "PySwitch.Props.C10_inputs_scanned",
    "PySwitch.Props.C10_tick_updates",
    "PySwitch.Props.C10_client_gets_all"
   ],
   "note": ""
  },
  {
   "property": "C11",
   "status": "proved",
   "theorems": [
    "PySwitch.Props.C11_drained",
    "PySwitch.Props.C11_not_drained"
   ],
   "note": ""
  },
  {
   "property": "C12",
   "status": "proved",
   "theorems": [
    "PySwitch.Props.C12_edges",
    "PySwitch.Props.C12_alternate"
   ],
   "note": ""
  },
  {
   "property": "C13",
   "status": "proved",
   "theorems": [
    "PySwitch.Props.C13_short_or_long",
    "PySwitch.Props.C13_exclusive"
   ],
   "note": ""
  },
  {
   "property": "C14",
   "status": "partial",
   "theorems": [
    "PySwitch.Props.C14_repeat_partial",
    "PySwitch.Props.C14_spacing",
    "PySwitch.Props.C14_stale_hold"
   ],
   "note": "Proved that the hold actions repeat with more than the hold time between them and that the release triggers nothing; the clean restart holds only if no hold was left pending: C14_stale_hold shows the state left behind."
  },
  {
   "property": "C15",
   "status": "partial",
   "theorems": [
    "PySwitch.Props.C15_declining_partial",
    "PySwitch.Props.C15_no_hold",
    "PySwitch.Props.C15_accepting",
    "PySwitch.Props.C15_stale_hold"
   ],
   "note": "Proved for switches whose own hold state is clear; C15_stale_hold is the counterexample for a hold that was pending when the override was set."
  },
  {
   "property": "C16",
   "status": "proved",
   "theorems": [
    "PySwitch.Props.C16_round_trip",
    "PySwitch.Props.C16_over_the_wire",
    "PySwitch.Props.C16_long_template"
   ],
   "note": ""
  },
  {
   "property": "C17",
   "status": "proved",
   "theorems": [
    "PySwitch.Props.C17_attribution",
    "PySwitch.Props.C17_value"
   ],
   "note": ""
  },
  {
   "property": "C18",
   "status": "proved",
   "theorems": [
    "PySwitch.Props.C18_string"
   ],
   "note": ""
  },
  {
   "property": "C19",
   "status": "proved",
   "theorems": [
    "PySwitch.Props.C19_rig_id"
   ],
   "note": ""
  },
  {
   "property": "C20",
   "status": "proved",
   "theorems": [
    "PySwitch.Props.C20_shared"
   ],
   "note": ""
  },
  {
   "property": "C21",
   "status": "proved",
   "theorems": [
    "PySwitch.Props.C21_single",
    "PySwitch.Props.C21_many",
    "PySwitch.Props.C21_none",
    "PySwitch.Props.C21_frame"
   ],
   "note": ""
  },
  {
   "property": "C22",
   "status": "proved",
   "theorems": [
    "PySwitch.Props.C22_unique",
    "PySwitch.Props.C22_pending",
    "PySwitch.Props.C22_not_requestable",
    "PySwitch.Props.C22_new"
   ],
   "note": ""
  },
  {
   "property": "C23",
   "status": "proved",
   "theorems": [
    "PySwitch.Props.C23_answer",
    "PySwitch.Props.C23_other",
    "PySwitch.Props.C23_two_part"
   ],
   "note": ""
  },
  {
   "property": "C24",
   "status": "proved",
   "theorems": [
    "PySwitch.Props.C24_created",
    "PySwitch.Props.C24_not_early",
    "PySwitch.Props.C24_deadline",
    "PySwitch.Props.C24_permanent"
   ],
   "note": ""
  },
  {
   "property": "C25",
   "status": "partial",
   "theorems": [
    "PySwitch.Props.C25_trigger_partial",
    "PySwitch.Props.C25_no_trigger",
    "PySwitch.Props.C25_second_listener_lost",
    "PySwitch.Props.C25_termination_lost"
   ],
   "note": "The trigger part is proved in full; informing every component that asked is proved for the first one only, and is false for the others (C25_second_listener_lost) and if the trigger does not answer (C25_termination_lost)."
  },
  {
   "property": "C26",
   "status": "partial",
   "theorems": [
    "PySwitch.Props.C26_never_polled",
    "PySwitch.Props.C26_updates_partial",
    "PySwitch.Props.C26_late_registration_lost"
   ],
   "note": "Never polled: in full. Updates: if no one-shot request is pending at registration; otherwise false (C26_late_registration_lost)."
  },
  {
   "property": "C27",
   "status": "proved",
   "theorems": [
    "PySwitch.Props.C27_feedback",
    "PySwitch.Props.C27_unregistered",
    "PySwitch.Props.C27_no_feedback"
   ],
   "note": ""
  },
  {
   "property": "C28",
   "status": "proved",
   "theorems": [
    "PySwitch.Props.C28_spacing",
    "PySwitch.Props.C28_beacon",
    "PySwitch.Props.C28_connect",
    "PySwitch.Props.C28_client",
    "PySwitch.Props.C28_forwarded"
   ],
   "note": ""
  },
  {
   "property": "C29",
   "status": "partial",
   "theorems": [
    "PySwitch.Props.C29_keep_alive",
    "PySwitch.Props.C29_spacing",
    "PySwitch.Props.C29_lost",
    "PySwitch.Props.C29_reported_partial",
    "PySwitch.Props.C29_quick_reconnect"
   ],
   "note": "Keep-alive and loss detection in full; the report to the listeners is proved for the next init beacon; it is missing if the connection comes back before (C29_quick_reconnect)."
  },
  {
   "property": "C30",
   "status": "proved",
   "theorems": [
    "PySwitch.Props.C30_flags",
    "PySwitch.Props.C30_bits",
    "PySwitch.Props.C30_beacon",
    "PySwitch.Props.C30_injective"
   ],
   "note": ""
  },
  {
   "property": "C31",
   "status": "proved",
   "theorems": [
    "PySwitch.Props.C31_press",
    "PySwitch.Props.C31_presses",
    "PySwitch.Props.C31_latch",
    "PySwitch.Props.C31_momentary",
    "PySwitch.Props.C31_no_change"
   ],
   "note": ""
  },
  {
   "property": "C32",
   "status": "proved",
   "theorems": [
    "PySwitch.Props.C32_feedback",
    "PySwitch.Props.C32_notified"
   ],
   "note": ""
  },
  {
   "property": "C33",
   "status": "proved",
   "theorems": [
    "PySwitch.Props.C33_partition",
    "PySwitch.Props.C33_disjoint",
    "PySwitch.Props.C33_nonempty",
    "PySwitch.Props.C33_others"
   ],
   "note": ""
  },
  {
   "property": "C34",
   "status": "proved",
   "theorems": [
    "PySwitch.Props.C34_write",
    "PySwitch.Props.C34_own_leds",
    "PySwitch.Props.C34_color",
    "PySwitch.Props.C34_wrong_number",
    "PySwitch.Props.C34_dim"
   ],
   "note": ""
  },
  {
   "property": "C35",
   "status": "partial",
   "theorems": [
    "PySwitch.Props.C35_changed_partial",
    "PySwitch.Props.C35_value",
    "PySwitch.Props.C35_device_only",
    "PySwitch.Props.C35_reset",
    "PySwitch.Props.C35_stale"
   ],
   "note": "Holds for every value differing from the previously known one, after resets, and as long as the user does not push (C35_changed_partial, C35_reset, C35_device_only). A repeated equal value is not evaluated again, so a refused switching stays displayed as on: C35_stale."
  },
  {
   "property": "C36",
   "status": "proved",
   "theorems": [
    "PySwitch.Props.C36_single",
    "PySwitch.Props.C36_list"
   ],
   "note": "For the comparison modes proper (NO_STATE_CHANGE compares nothing). Nothing is sent if no off value has been received yet."
  },
  {
   "property": "C37",
   "status": "proved",
   "theorems": [
    "PySwitch.Props.C37_range",
    "PySwitch.Props.C37_max",
    "PySwitch.Props.C37_changes",
    "PySwitch.Props.C37_current"
   ],
   "note": "Floats are modelled as rationals."
  },
  {
   "property": "C38",
   "status": "partial",
   "theorems": [
    "PySwitch.Props.C38_monotone",
    "PySwitch.Props.C38_lowest",
    "PySwitch.Props.C38_threshold",
    "PySwitch.Props.C38_calibrated_partial",
    "PySwitch.Props.C38_calibrated_monotone",
    "PySwitch.Props.C38_max_missed"
   ],
   "note": "Monotone and zero at the lowest input in all configurations; the maximum is reached by calibration if the step width divides 65536 (C38_calibrated_partial). With 100 steps and an NRPN parameter it is missed: C38_max_missed."
  },
  {
   "property": "C39",
   "status": "proved",
   "theorems": [
    "PySwitch.Props.C39_range",
    "PySwitch.Props.C39_no_change",
    "PySwitch.Props.C39_only_turning"
   ],
   "note": ""
  },
  {
   "property": "C40",
   "status": "partial",
   "theorems": [
    "PySwitch.Props.C40_direct_partial",
    "PySwitch.Props.C40_preselect",
    "PySwitch.Props.C40_step_lost",
    "PySwitch.Props.C40_position_lost",
    "PySwitch.Props.C40_preselect_start"
   ],
   "note": "Proved for direct mode from a known value while the device does not change it (C40_direct_partial), and for each turn of a running preselection (C40_preselect). False after a device change (C40_step_lost), when leaving position -1 (C40_position_lost) and for the first preselection (C40_preselect_start)."
  },
  {
   "property": "C41",
   "status": "proved",
   "theorems": [
    "PySwitch.Props.C41_turning",
    "PySwitch.Props.C41_once",
    "PySwitch.Props.C41_accept",
    "PySwitch.Props.C41_adjusted"
   ],
   "note": ""
  },
  {
   "property": "C42",
   "status": "partial",
   "theorems": [
    "PySwitch.Props.C42_shown",
    "PySwitch.Props.C42_timeout_partial",
    "PySwitch.Props.C42_reset",
    "PySwitch.Props.C42_delayed_reset",
    "PySwitch.Props.C42_takeover",
    "PySwitch.Props.C42_no_callback"
   ],
   "note": "In full for labels whose normal text comes from a callback; a label without one keeps the preview text (C42_no_callback)."
  },
  {
   "property": "C43",
   "status": "proved",
   "theorems": [
    "PySwitch.Props.C43_valid",
    "PySwitch.Props.C43_cycle",
    "PySwitch.Props.C43_inverse",
    "PySwitch.Props.C43_keep_bank"
   ],
   "note": ""
  },
  {
   "property": "C44",
   "status": "partial",
   "theorems": [
    "PySwitch.Props.C44_push_partial",
    "PySwitch.Props.C44_release",
    "PySwitch.Props.C44_preselection_pending"
   ],
   "note": "In full when no bank is preselected. With a pending preselection, rig up/down within the bank loads a rig of the preselected bank: C44_preselection_pending."
  },
  {
   "property": "C45",
   "status": "proved",
   "theorems": [
    "PySwitch.Props.C45_preselect",
    "PySwitch.Props.C45_no_banks",
    "PySwitch.Props.C45_all_banks"
   ],
   "note": "For every positive number of banks; with max_bank = 0 the wrapping loop never ends (C45_no_banks)."
  },
  {
   "property": "C46",
   "status": "proved",
   "theorems": [
    "PySwitch.Props.C46_push",
    "PySwitch.Props.C46_preselected",
    "PySwitch.Props.C46_unknown",
    "PySwitch.Props.C46_release",
    "PySwitch.Props.C46_morph",
    "PySwitch.Props.C46_morph_release"
   ],
   "note": ""
  },
  {
   "property": "C47",
   "status": "proved",
   "theorems": [
    "PySwitch.Props.C47_push",
    "PySwitch.Props.C47_preselect",
    "PySwitch.Props.C47_release"
   ],
   "note": ""
  },
  {
   "property": "C48",
   "status": "partial",
   "theorems": [
    "PySwitch.Props.C48_total",
    "PySwitch.Props.C48_family",
    "PySwitch.Props.C48_other",
    "PySwitch.Props.C48_disjoint",
    "PySwitch.Props.C48_documented",
    "PySwitch.Props.C48_extended_partial",
    "PySwitch.Props.C48_dual_chrom",
    "PySwitch.Props.C48_named_partial",
    "PySwitch.Props.C48_flanger_witness"
   ],
   "note": "Type 137 (DualChrom) has a name but is categorised as empty: C48_dual_chrom. Type 91 (flanger, one way) has no name of its own: C48_flanger_witness."
  },
  {
   "property": "C49",
   "status": "partial",
   "theorems": [
    "PySwitch.Props.C49_valid_partial",
    "PySwitch.Props.C49_rotate",
    "PySwitch.Props.C49_visits_all",
    "PySwitch.Props.C49_proxy",
    "PySwitch.Props.C49_direct_partial",
    "PySwitch.Props.C49_zero_id",
    "PySwitch.Props.C49_unknown_id",
    "PySwitch.Props.C49_mappings_raise"
   ],
   "note": "Proved for page ids that are set, not zero and known (C49_valid_partial, C49_direct_partial). The code fails otherwise: C49_zero_id (an id of 0 is taken for none), C49_unknown_id, C49_mappings_raise (get_mappings of a page raises)."
  },
  {
   "property": "C50",
   "status": "proved",
   "theorems": [
    "PySwitch.Props.C50_enabled",
    "PySwitch.Props.C50_exclusive",
    "PySwitch.Props.C50_reachable"
   ],
   "note": ""
  },
  {
   "property": "C51",
   "status": "proved",
   "theorems": [
    "PySwitch.Props.C51_rotates",
    "PySwitch.Props.C51_kth_press"
   ],
   "note": ""
  },
  {
   "property": "C52",
   "status": "partial",
   "theorems": [
    "PySwitch.Props.C52_range",
    "PySwitch.Props.C52_press",
    "PySwitch.Props.C52_repeat_partial",
    "PySwitch.Props.C52_repeats",
    "PySwitch.Props.C52_runaway"
   ],
   "note": "Range and single press in full. The repetition stops at release only if the release reaches the action (C52_repeat_partial); when the action is disabled in between it goes on (C52_runaway)."
  },
  {
   "property": "C53",
   "status": "proved",
   "theorems": [
    "PySwitch.Props.C53_partition",
    "PySwitch.Props.C53_sequence",
    "PySwitch.Props.C53_strip",
    "PySwitch.Props.C53_part",
    "PySwitch.Props.C53_only",
    "PySwitch.Props.C53_translate"
   ],
   "note": ""
  },
  {
   "property": "C54",
   "status": "proved",
   "theorems": [
    "PySwitch.Props.C54_update",
    "PySwitch.Props.C54_history",
    "PySwitch.Props.C54_no_overlap",
    "PySwitch.Props.C54_start",
    "PySwitch.Props.C54_children_argument"
   ],
   "note": "C54_children_argument: containers created with their children are not laid out until something is added or the layout is updated by hand (the claim is about additions and updates)."
  },
  {
   "property": "C55",
   "status": "partial",
   "theorems": [
    "PySwitch.Props.C55_all",
    "PySwitch.Props.C55_once",
    "PySwitch.Props.C55_initialized",
    "PySwitch.Props.C55_flat",
    "PySwitch.Props.C55_never_twice",
    "PySwitch.Props.C55_shown_partial",
    "PySwitch.Props.C55_late_child",
    "PySwitch.Props.C55_container_again"
   ],
   "note": "C55_shown_partial: as long as nothing is added to a tree while it is shown. C55_late_child: an element added to the shown tree stays uninitialised even if the tree is shown again. C55_container_again: elements with children can be initialised again after additions below."
  },
  {
   "property": "C56",
   "status": "partial",
   "theorems": [
    "PySwitch.Props.C56_inside_partial",
    "PySwitch.Props.C56_near",
    "PySwitch.Props.C56_outside",
    "PySwitch.Props.C56_monotone",
    "PySwitch.Props.C56_center",
    "PySwitch.Props.C56_in_tune_partial",
    "PySwitch.Props.C56_exact_first",
    "PySwitch.Props.C56_note"
   ],
   "note": "Marker position, order, middle and note names are proved for all values. The marker can leave a display area not starting at x = 0 by one pixel (C56_outside, because the zoom is computed from 8191 and applied to 8192), and the exact pitch as the first value after start or reset is not shown as in tune (C56_exact_first)."
  },
  {
   "property": "C57",
   "status": "partial",
   "theorems": [
    "PySwitch.Props.C57_frame_rate",
    "PySwitch.Props.C57_terminates",
    "PySwitch.Props.C57_endless",
    "PySwitch.Props.C57_valid",
    "PySwitch.Props.C57_phase",
    "PySwitch.Props.C57_highlight",
    "PySwitch.Props.C57_still",
    "PySwitch.Props.C57_shown_partial",
    "PySwitch.Props.C57_direction",
    "PySwitch.Props.C57_stale"
   ],
   "note": "Termination for every positive speed (and non-termination for zero), range, highlight and standstill are proved. Display of the pattern is partial: the LED cache of the strobe is not invalidated when the callback switches the LEDs off on the next engagement (C57_stale)."
  },
  {
   "property": "C58",
   "status": "proved",
   "theorems": [
    "PySwitch.Props.C58_ports",
    "PySwitch.Props.C58_pixels",
    "PySwitch.Props.C58_one",
    "PySwitch.Props.C58_cycle",
    "PySwitch.Props.C58_marker",
    "PySwitch.Props.C58_labels"
   ],
   "note": ""
  },
  {
   "property": "C59",
   "status": "partial",
   "theorems": [
    "PySwitch.Props.C59_stats_partial",
    "PySwitch.Props.C59_zero_start",
    "PySwitch.Props.C59_report"
   ],
   "note": "Proved for clocks which do not go back and have left zero; C59_zero_start shows that a measurement started at clock reading 0 is lost. C59_report holds without any assumption on the clock."
  },
  {
   "property": "C60",
   "status": "proved",
   "theorems": [
    "PySwitch.Props.C60_fill_up_to"
   ],
   "note": ""
  },
  {
   "property": "C61",
   "status": "proved",
   "theorems": [
    "PySwitch.Props.C61_between",
    "PySwitch.Props.C61_ends",
    "PySwitch.Props.C61_monotone",
    "PySwitch.Props.C61_fixed"
   ],
   "note": "Exact for the rational value/16383; float rounding of the quotient is not modelled."
  },
  {
   "property": "C62",
   "status": "partial",
   "theorems": [
    "PySwitch.Props.C62_no_actions_partial",
    "PySwitch.Props.C62_press",
    "PySwitch.Props.C62_engage_partial",
    "PySwitch.Props.C62_leave_needs_press",
    "PySwitch.Props.C62_off",
    "PySwitch.Props.C62_process_overridden",
    "PySwitch.Props.C62_second_release_lost",
    "PySwitch.Props.C62_stale_press",
    "PySwitch.Props.C62_hold_fires"
   ],
   "note": "Partial: a hold pending when the tuner is engaged still fires (C62_hold_fires), a press in tuner mode whose release happens outside makes the next engagement end at once (C62_stale_press), and with overridden actions processed the second of two simultaneous releases is lost (C62_second_release_lost)."
  },
  {
   "property": "C63",
   "status": "partial",
   "theorems": [
    "PySwitch.Props.C63_enable",
    "PySwitch.Props.C63_single_stays",
    "PySwitch.Props.C63_fixed_partial",
    "PySwitch.Props.C63_enable_blocked"
   ],
   "note": "Holds for single values and for lists without auto (C63_enable, C63_fixed_partial, C36_single, C36_list). With a list containing an unresolved auto entry, switching on sends nothing: C63_enable_blocked."
  },
  {
   "property": "C64",
   "status": "proved",
   "theorems": [
    "PySwitch.Props.C64_display",
    "PySwitch.Props.C64_redraw"
   ],
   "note": ""
  },
  {
   "property": "C65",
   "status": "partial",
   "theorems": [
    "PySwitch.Props.C65_input_partial",
    "PySwitch.Props.C65_out_of_range"
   ],
   "note": "Holds without calibration; with calibration the input reaches 65536 (C65_input_partial, C65_out_of_range)."
  },
  {
   "property": "C66",
   "status": "proved",
   "theorems": [
    "PySwitch.Props.C66_no_exception",
    "PySwitch.Props.C66_window_zero"
   ],
   "note": ""
  },
  {
   "property": "C67",
   "status": "partial",
   "theorems": [
    "PySwitch.Props.C67_no_exception_partial",
    "PySwitch.Props.C67_cancel_first",
    "PySwitch.Props.C67_bank_first"
   ],
   "note": "Proved for ordinary parameters once the first value has arrived. False before (C67_cancel_first, C67_bank_first)."
  },
  {
   "property": "C68",
   "status": "partial",
   "theorems": [
    "PySwitch.Props.C68_no_blink",
    "PySwitch.Props.C68_reset_partial",
    "PySwitch.Props.C68_blinks",
    "PySwitch.Props.C68_blink_left",
    "PySwitch.Props.C68_interval"
   ],
   "note": "Proved for previews ended by a reset (as encoders do). A preview ended by its timeout while the blinking color is shown keeps it: C68_blink_left."
  },
  {
   "property": "C69",
   "status": "proved",
   "theorems": [
    "PySwitch.Props.C69_percentage",
    "PySwitch.Props.C69_ends"
   ],
   "note": ""
  },
  {
   "property": "C70",
   "status": "partial",
   "theorems": [
    "PySwitch.Props.C70_auto_partial",
    "PySwitch.Props.C70_same_slot",
    "PySwitch.Props.C70_same_bank"
   ],
   "note": "Proved if the previous rig differs in slot (and in bank, if a bank is configured); otherwise false: C70_same_slot, C70_same_bank."
  },
  {
   "property": "C71",
   "status": "proved",
   "theorems": [
    "PySwitch.Props.C71_text",
    "PySwitch.Props.C71_color",
    "PySwitch.Props.C71_encode",
    "PySwitch.Props.C71_known"
   ],
   "note": ""
  },
  {
   "property": "C72",
   "status": "partial",
   "theorems": [
    "PySwitch.Props.C72_empty_partial",
    "PySwitch.Props.C72_value",
    "PySwitch.Props.C72_reset",
    "PySwitch.Props.C72_on_again",
    "PySwitch.Props.C72_stale_off"
   ],
   "note": "Proved for the event which empties the slot and for changed values. False in general: an on/off value after the type shows an empty slot as on (C72_on_again), and an effect loaded with unchanged on/off value is shown as off (C72_stale_off)."
  },
  {
   "property": "C73",
   "status": "partial",
   "theorems": [
    "PySwitch.Props.C73_shows_partial",
    "PySwitch.Props.C73_stale"
   ],
   "note": "Proved for selectors enabled at the time of the push (C73_shows_partial); C73_stale shows a selector enabled later with the LEDs of the old page."
  },
  {
   "property": "C74",
   "status": "proved",
   "theorems": [
    "PySwitch.Props.C74_valid",
    "PySwitch.Props.C74_ends",
    "PySwitch.Props.C74_follows",
    "PySwitch.Props.C74_disabled"
   ],
   "note": ""
  },
  {
   "property": "C75",
   "status": "proved",
   "theorems": [
    "PySwitch.Props.C75_shows",
    "PySwitch.Props.C75_before",
    "PySwitch.Props.C75_contrast",
    "PySwitch.Props.C75_background",
    "PySwitch.Props.C75_wrapped",
    "PySwitch.Props.C75_green"
   ],
   "note": ""
  },
  {
   "property": "C76",
   "status": "proved",
   "theorems": [
    "PySwitch.Props.C76_inside",
    "PySwitch.Props.C76_color"
   ],
   "note": ""
  },
  {
   "property": "C77",
   "status": "partial",
   "theorems": [
    "PySwitch.Props.C77_value",
    "PySwitch.Props.C77_follows_partial",
    "PySwitch.Props.C77_press",
    "PySwitch.Props.C77_own",
    "PySwitch.Props.C77_display_only",
    "PySwitch.Props.C77_external",
    "PySwitch.Props.C77_stuck",
    "PySwitch.Props.C77_ignored",
    "PySwitch.Props.C77_other_late"
   ],
   "note": "C77_value characterises every device value in every history; partial because a value the device merely repeats after a press is not taken over (C77_stuck), the first new value after enabling is dropped by design (C77_ignored), and other displays follow only with their next own event (C77_other_late)."
  },
  {
   "property": "C78",
   "status": "proved",
   "theorems": [
    "PySwitch.Props.C78_names",
    "PySwitch.Props.C78_address",
    "PySwitch.Props.C78_number",
    "PySwitch.Props.C78_text",
    "PySwitch.Props.C78_answered",
    "PySwitch.Props.C78_controllers",
    "PySwitch.Props.C78_set_addresses",
    "PySwitch.Props.C78_slots",
    "PySwitch.Props.C78_set_code",
    "PySwitch.Props.C78_documented_controls",
    "PySwitch.Props.C78_documented_addresses",
    "PySwitch.Props.C78_reported_set",
    "PySwitch.Props.C78_reported"
   ],
   "note": ""
  },
  {
   "property": "C79",
   "status": "partial",
   "theorems": [
    "PySwitch.Props.C79_shown_partial",
    "PySwitch.Props.C79_sent_partial",
    "PySwitch.Props.C79_early_press",
    "PySwitch.Props.C79_hidden",
    "PySwitch.Props.C79_text",
    "PySwitch.Props.C79_reset",
    "PySwitch.Props.C79_disabled_label"
   ],
   "note": "proved for histories in which a change of the page takes effect (update) before the next press; C79_early_press, C79_reset and C79_disabled_label prove that the code violates the full statement: a press before that update, a reset (tuner, paging) and a rig change while disabled"
  },
  {
   "property": "C80",
   "status": "partial",
   "theorems": [
    "PySwitch.Props.C80_text_partial",
    "PySwitch.Props.C80_keeps",
    "PySwitch.Props.C80_id",
    "PySwitch.Props.C80_numbers",
    "PySwitch.Props.C80_stale",
    "PySwitch.Props.C80_missed"
   ],
   "note": "the text is proved at each refresh; C80_stale and C80_missed prove that the label is not refreshed when a preselection is removed, nor when it is removed and made again between two updates"
  },
  {
   "property": "C81",
   "status": "proved",
   "theorems": [
    "PySwitch.Props.C81_text",
    "PySwitch.Props.C81_bpm"
   ],
   "note": ""
  },
  {
   "property": "C82",
   "status": "partial",
   "theorems": [
    "PySwitch.Props.C82_leds",
    "PySwitch.Props.C82_label_partial",
    "PySwitch.Props.C82_quiet",
    "PySwitch.Props.C82_preview_partial",
    "PySwitch.Props.C82_missed",
    "PySwitch.Props.C82_page"
   ],
   "note": "C82_missed and C82_page prove that the code violates the full statement: a change of the tempo after a rig change without tempo change is not shown, and the text is not restored when the page is shown again"
  },
  {
   "property": "C83",
   "status": "partial",
   "theorems": [
    "PySwitch.Props.C83_label_partial",
    "PySwitch.Props.C83_preselection",
    "PySwitch.Props.C83_off_bank_only",
    "PySwitch.Props.C83_bank_up_stale",
    "PySwitch.Props.C83_rig_down_preselected"
   ],
   "note": "Proved for every history for rig select, bank select and (without preselecting actions) rig up/down, for labels and colors. Missing: false for off bank without off rig (C83_off_bank_only), with BANK_UP/DOWN preselection (C83_bank_up_stale) and RIG_UP/DOWN during a preselection (C83_rig_down_preselected)."
  },
  {
   "property": "C84",
   "status": "proved",
   "theorems": [
    "PySwitch.Props.C84_bright",
    "PySwitch.Props.C84_preselected"
   ],
   "note": "For every history of the actions of C83, while the device has no preselected bank."
  },
  {
   "property": "C85",
   "status": "proved",
   "theorems": [
    "PySwitch.Props.C85_bank_change",
    "PySwitch.Props.C85_bank_colors"
   ],
   "note": "For every state of all actions, after a report of the device."
  },
  {
   "property": "C86",
   "status": "partial",
   "theorems": [
    "PySwitch.Props.C86_quiet",
    "PySwitch.Props.C86_hidden_partial",
    "PySwitch.Props.C86_hidden_label",
    "PySwitch.Props.C86_blink",
    "PySwitch.Props.C86_bank_change_blinks",
    "PySwitch.Props.C86_initial"
   ],
   "note": "LEDs of hidden actions never change, labels only by an update of their own during a preselection, which does occur (C86_hidden_label). Updates without preselection change nothing. Blink phase of rig select switches."
  },
  {
   "property": "C87",
   "status": "proved",
   "theorems": [
    "PySwitch.Props.C87_bytes",
    "PySwitch.Props.C87_looper",
    "PySwitch.Props.C87_tap_tempo",
    "PySwitch.Props.C87_pairs",
    "PySwitch.Props.C87_stuck"
   ],
   "note": "Resets while the switch is held are outside the claim; C87_stuck proves that they matter: a page change, or the first periodic update after the start, while a looper or tap switch is held leaves the function switched on (the off message is never sent)."
  },
  {
   "property": "C88",
   "status": "proved",
   "theorems": [
    "PySwitch.Props.C88_consistent",
    "PySwitch.Props.C88_stable",
    "PySwitch.Props.C88_actions",
    "PySwitch.Props.C88_front_panel",
    "PySwitch.Props.C88_late",
    "PySwitch.Props.C88_auto"
   ],
   "note": "The restrictions are needed: C88_front_panel (parameter changed back at the device before the next answer) and C88_auto (value to restore not known) leave the LEDs wrong for ever."
  },
  {
   "property": "C89",
   "status": "proved",
   "theorems": [
    "PySwitch.Props.C89_consistent",
    "PySwitch.Props.C89_settles",
    "PySwitch.Props.C89_crossing"
   ],
   "note": "The restriction is needed: C89_crossing (messages of both directions crossing) leaves the LEDs wrong for ever."
  },
  {
   "property": "C90",
   "status": "proved",
   "theorems": [
    "PySwitch.Props.C90_messages",
    "PySwitch.Props.C90_received",
    "PySwitch.Props.C90_programs",
    "PySwitch.Props.C90_led",
    "PySwitch.Props.C90_leds",
    "PySwitch.Props.C90_three_leds"
   ],
   "note": "C90_messages: bytes on the wire over any history; C90_received: as read back by the parser; C90_programs: the table; C90_led, C90_leds: LEDs; C90_three_leds: with three LEDs they do not tell the next program (period 3 against 2)."
  },
  {
   "property": "C91",
   "status": "proved",
   "theorems": [
    "PySwitch.Props.C91_stream",
    "PySwitch.Props.C91_known",
    "PySwitch.Props.C91_split"
   ],
   "note": "C91_stream (whole buffer, with SysEx), C91_known (the known messages are undisturbed), C91_split (every split into reads, without SysEx, foreign messages of at most two data bytes). SysEx with split reads is the subject of C06."
  },
  {
   "property": "C92",
   "status": "partial",
   "theorems": [
    "PySwitch.Props.C92_between_partial",
    "PySwitch.Props.C92_inside_control_change",
    "PySwitch.Props.C92_inside_sysex",
    "PySwitch.Props.C92_running_status"
   ],
   "note": "Proved for real-time bytes between messages (C92_between_partial). The code violates the rest: a clock byte inside a Control Change (C92_inside_control_change) or a SysEx message (C92_inside_sysex) destroys it, and running status is not understood (C92_running_status, for all channels, values and data)."
  },
  {
   "property": "C93",
   "status": "partial",
   "theorems": [
    "PySwitch.Props.C93_goes_on_partial",
    "PySwitch.Props.C93_stuck",
    "PySwitch.Props.C93_lost"
   ],
   "note": "Proved for channel messages and unknown messages of at most two data bytes (C93_goes_on_partial). In general the code violates it, for every buffer size: data bytes filling the buffer up to a Control Change status byte at its end block the input for ever (C93_stuck), which is reachable from an empty buffer (C93_lost)."
  },
  {
   "property": "C94",
   "status": "proved",
   "theorems": [
    "PySwitch.Props.C94_thru",
    "PySwitch.Props.C94_transparent",
    "PySwitch.Props.C94_channel",
    "PySwitch.Props.C94_device"
   ],
   "note": "C94_thru: composition of the parser (C91), routing (C08) and serialiser (C04); C94_transparent: byte by byte if on the channel of the target; C94_channel: the channel is not preserved. All bytes are in the input buffer from the beginning; arrival in portions is covered by C91 and C08 separately."
  },
  {
   "property": "C95",
   "status": "partial",
   "theorems": [
    "PySwitch.Props.C95_accept_partial",
    "PySwitch.Props.C95_cancel_partial",
    "PySwitch.Props.C95_mixed",
    "PySwitch.Props.C95_never_both"
   ],
   "note": "C95_accept_partial, C95_cancel_partial: for buttons with one purpose; C95_mixed: negation for mixed use; C95_never_both for all configurations."
  },
  {
   "property": "C96",
   "status": "proved",
   "theorems": [
    "PySwitch.Props.C96_sent",
    "PySwitch.Props.C96_display",
    "PySwitch.Props.C96_sends_shown",
    "PySwitch.Props.C96_hold"
   ],
   "note": "Composition of the models of the encoder, its buttons, the switch and the preview label. For histories without exception (see C98_crash, C67) and without an override action on the switch; minimum of the range at least 0."
  },
  {
   "property": "C97",
   "status": "partial",
   "theorems": [
    "PySwitch.Props.C97_gain",
    "PySwitch.Props.C97_transpose",
    "PySwitch.Props.C97_bpm",
    "PySwitch.Props.C97_volume_partial",
    "PySwitch.Props.C97_volume_zero"
   ],
   "note": "C97_volume_partial: the sign of numbers shown as zero is not determined (C97_volume_zero is the witness). Floats are rational numbers."
  },
  {
   "property": "C98",
   "status": "partial",
   "theorems": [
    "PySwitch.Props.C98_start_partial",
    "PySwitch.Props.C98_first",
    "PySwitch.Props.C98_stale",
    "PySwitch.Props.C98_rig",
    "PySwitch.Props.C98_crash"
   ],
   "note": "C98_start_partial: after an accepted or cancelled preview with the parameter unchanged since. Negations: C98_first, C98_stale, C98_rig, C98_crash."
  },
  {
   "property": "C99",
   "status": "proved",
   "theorems": [
    "PySwitch.Props.C99_wiring",
    "PySwitch.Props.C99_isolated",
    "PySwitch.Props.C99_setup",
    "PySwitch.Props.C99_keeps"
   ],
   "note": "Device tables, number of LEDs, set-up and all LED setters; LED colours are exact rationals times integers (the code stores brightnesses as 32 bit floats)."
  },
  {
   "property": "C100",
   "status": "proved",
   "theorems": [
    "PySwitch.Props.C100_start",
    "PySwitch.Props.C100_jacks",
    "PySwitch.Props.C100_pins"
   ],
   "note": "That CircuitPython refuses a pin in use is an assumption on the environment, part of the model."
  },
  {
   "property": "C101",
   "status": "partial",
   "theorems": [
    "PySwitch.Props.C101_order_partial",
    "PySwitch.Props.C101_dark_place"
   ],
   "note": "Partial: the switches of the configuration must all have LEDs; C101_dark_place shows the gap for the shipped configuration."
  },
  {
   "property": "C102",
   "status": "proved",
   "theorems": [
    "PySwitch.Props.C102_tiles",
    "PySwitch.Props.C102_screen",
    "PySwitch.Props.C102_gaps",
    "PySwitch.Props.C102_dot"
   ],
   "note": "Areas of content/display.py."
  },
  {
   "property": "C103",
   "status": "partial",
   "theorems": [
    "PySwitch.Props.C103_reload_partial",
    "PySwitch.Props.C103_inputs_partial",
    "PySwitch.Props.C103_splashes_partial",
    "PySwitch.Props.C103_first_partial",
    "PySwitch.Props.C103_lost",
    "PySwitch.Props.C103_undefined"
   ],
   "note": "C103_reload_partial: any limit on nested variables from the number of named parts on. C103_first_partial: files without the top variable, for trees without variables. C103_lost, C103_undefined: what is missing, the tree or its variables are silently not written into a file without the top variable."
  },
  {
   "property": "C104",
   "status": "partial",
   "theorems": [
    "PySwitch.Props.C104_unchanged_partial",
    "PySwitch.Props.C104_star",
    "PySwitch.Props.C104_single_quotes",
    "PySwitch.Props.C104_alias",
    "PySwitch.Props.C104_twice",
    "PySwitch.Props.C104_empty_list",
    "PySwitch.Props.C104_bounds"
   ],
   "note": "C104_unchanged_partial for files without stars, single quoted keys, second names for variables, variables set twice or to an empty list. C104_star, C104_single_quotes, C104_alias, C104_twice, C104_empty_list show that the code fails for each of these. C104_bounds: positional display bounds are saved with keywords of the same meaning."
  },
  {
   "property": "C105",
   "status": "proved",
   "theorems": [
    "PySwitch.Props.C105_rest",
    "PySwitch.Props.C105_places"
   ],
   "note": "C105_rest: the untouched statements. C105_places: order and targets of all statements."
  },
  {
   "property": "C106",
   "status": "partial",
   "theorems": [
    "PySwitch.Props.C106_order_partial",
    "PySwitch.Props.C106_too_late"
   ],
   "note": "C106_order_partial: holds if the new variables fit into the file (spec Fits). Missing: trees where an existing variable needs a new one. C106_too_late: there the saved file uses a variable before setting it."
  },
  {
   "property": "C107",
   "status": "partial",
   "theorems": [
    "PySwitch.Props.C107_imported_partial",
    "PySwitch.Props.C107_rest",
    "PySwitch.Props.C107_origin",
    "PySwitch.Props.C107_before_partial",
    "PySwitch.Props.C107_display_partial",
    "PySwitch.Props.C107_function_first",
    "PySwitch.Props.C107_function_import",
    "PySwitch.Props.C107_other_module",
    "PySwitch.Props.C107_twice",
    "PySwitch.Props.C107_later"
   ],
   "note": "C107_imported_partial, C107_before_partial, C107_display_partial: for files which begin with a simple statement, without imports inside of functions and without a name twice in one import. C107_rest and C107_origin hold without restriction. Witnesses where the full statement fails: C107_function_first, C107_function_import, C107_other_module, C107_twice, C107_later."
  },
  {
   "property": "C108",
   "status": "proved",
   "theorems": [
    "PySwitch.Props.C108_messages",
    "PySwitch.Props.C108_keys",
    "PySwitch.Props.C108_hold"
   ],
   "note": "C108_messages, C108_keys: switches without hold actions; C108_hold: one press of a switch with a message for holding."
  },
  {
   "property": "C109",
   "status": "partial",
   "theorems": [
    "PySwitch.Props.C109_text_partial",
    "PySwitch.Props.C109_messages",
    "PySwitch.Props.C109_wrong_color"
   ],
   "note": "C109_text_partial: the text. C109_wrong_color: the colour is not the configured one, as it is assigned to an attribute nothing uses."
  },
  {
   "property": "C110",
   "status": "proved",
   "theorems": [
    "PySwitch.Props.C110_silent",
    "PySwitch.Props.C110_since_last",
    "PySwitch.Props.C110_account",
    "PySwitch.Props.C110_percent",
    "PySwitch.Props.C110_size"
   ],
   "note": ""
  },
  {
   "property": "C111",
   "status": "proved",
   "theorems": [
    "PySwitch.Props.C111_running",
    "PySwitch.Props.C111_error",
    "PySwitch.Props.C111_explore",
    "PySwitch.Props.C111_boot"
   ],
   "note": ""
  },
  {
   "property": "C112",
   "status": "proved",
   "theorems": [
    "PySwitch.Props.C112_warning"
   ],
   "note": ""
  },
  {
   "property": "C113",
   "status": "proved",
   "theorems": [
    "PySwitch.Props.C113_connects",
    "PySwitch.Props.C113_kept",
    "PySwitch.Props.C113_recovers",
    "PySwitch.Props.C113_too_short"
   ],
   "note": "Closed loop of the protocol of PySwitch and that of the virtual device. C113_connects: established within a bounded time; C113_kept: never lost again, no loss reported; C113_recovers: after any history with interruptions. C113_too_short shows that the condition on the lease is needed (a lease of one second is sent as zero)."
  },
  {
   "property": "C114",
   "status": "proved",
   "theorems": [
    "PySwitch.Props.C114_agree",
    "PySwitch.Props.C114_empty",
    "PySwitch.Props.C114_understood_nrpn",
    "PySwitch.Props.C114_understood_cc"
   ],
   "note": "Closed loop of the bidirectional client and the parameters of the virtual device. C114_agree: any history; C114_empty: both cables empty. Assumptions visible in Allowed/Healthy/Known: PySwitch sets numbers the device understands, nobody else sends values with the address, the device stays connected with parameter set 2."
  },
  {
   "property": "C115",
   "status": "partial",
   "theorems": [
    "PySwitch.Props.C115_saved_partial",
    "PySwitch.Props.C115_shown_partial",
    "PySwitch.Props.C115_shows",
    "PySwitch.Props.C115_rearranged_partial",
    "PySwitch.Props.C115_unchanged_partial",
    "PySwitch.Props.C115_option_partial",
    "PySwitch.Props.C115_pages_variable",
    "PySwitch.Props.C115_actions_variable",
    "PySwitch.Props.C115_expression",
    "PySwitch.Props.C115_none_removed",
    "PySwitch.Props.C115_page_key",
    "PySwitch.Props.C115_port_variable"
   ],
   "note": "For files the editor can represent (as in C104) with literal inputs and literal lists of actions which are calls or variables for calls. Missing: pages or lists in variables, other expressions as actions, None entries, unknown page keys, ports in variables; each has a witness."
  },
  {
   "property": "C116",
   "status": "partial",
   "theorems": [
    "PySwitch.Props.C116_read_back",
    "PySwitch.Props.C116_others",
    "PySwitch.Props.C116_writable",
    "PySwitch.Props.C116_buffered_partial",
    "PySwitch.Props.C116_stale_hold"
   ],
   "note": "Complete for the tree. The buffered hold actions are stale after setting (witness C116_stale_hold)."
  },
  {
   "property": "C117",
   "status": "partial",
   "theorems": [
    "PySwitch.Props.C117_warned_partial",
    "PySwitch.Props.C117_listed_partial",
    "PySwitch.Props.C117_regarded",
    "PySwitch.Props.C117_once",
    "PySwitch.Props.C117_ends",
    "PySwitch.Props.C117_positional",
    "PySwitch.Props.C117_itself"
   ],
   "note": "Equivalence proved for all configurations for which the checks end, and exactly characterised when they end (C117_ends). Missing: with a display as positional argument the checks throw (C117_positional)."
  },
  {
   "property": "C118",
   "status": "partial",
   "theorems": [
    "PySwitch.Props.C118_alone",
    "PySwitch.Props.C118_order",
    "PySwitch.Props.C118_all_partial",
    "PySwitch.Props.C118_dead"
   ],
   "note": "Mutual exclusion and order for all histories; progress if no callback throws. C118_dead: after a failure nothing is started any more."
  },
  {
   "property": "C119",
   "status": "partial",
   "theorems": [
    "PySwitch.Props.C119_bytes",
    "PySwitch.Props.C119_numbers",
    "PySwitch.Props.C119_text_partial",
    "PySwitch.Props.C119_text_witness",
    "PySwitch.Props.C119_legal",
    "PySwitch.Props.C119_wrap",
    "PySwitch.Props.C119_others"
   ],
   "note": "Round trips and legality for all inputs and histories. Partial: text with a leading byte order mark or lone surrogates changes (C119_text_witness)."
  },
  {
   "property": "C120",
   "status": "partial",
   "theorems": [
    "PySwitch.Props.C120_damage_partial",
    "PySwitch.Props.C120_checksum_partial",
    "PySwitch.Props.C120_command_witness",
    "PySwitch.Props.C120_three_witness"
   ],
   "note": "One damaged half-byte, or two adjacent ones, after the command, and any damage of the checksum. Not covered: damage of the command (C120_command_witness) and wider damage (C120_three_witness)."
  },
  {
   "property": "C121",
   "status": "partial",
   "theorems": [
    "PySwitch.Props.C121_genuine_partial",
    "PySwitch.Props.C121_plain_text"
   ],
   "note": "For all schedules; partial: text which can be encoded (see C122), damage the checksum shows (see C120), up to 16777216 events."
  },
  {
   "property": "C122",
   "status": "partial",
   "theorems": [
    "PySwitch.Props.C122_delivered_partial",
    "PySwitch.Props.C122_effort_partial",
    "PySwitch.Props.C122_plain_text",
    "PySwitch.Props.C122_surrogates_witness",
    "PySwitch.Props.C122_idle_witness",
    "PySwitch.Props.C122_empty_witness"
   ],
   "note": "Delivery and effort for all fair histories. Partial: empty files (C122_empty_witness), surrogates on a chunk border (C122_surrogates_witness), idle transmissions (C122_idle_witness)."
  },
  {
   "property": "C123",
   "status": "partial",
   "theorems": [
    "PySwitch.Props.C123_distinct_partial",
    "PySwitch.Props.C123_taken",
    "PySwitch.Props.C123_seed_witness",
    "PySwitch.Props.C123_lost_witness"
   ],
   "note": "Partial: fails for the largest random number (C123_seed_witness, C123_lost_witness)."
  },
  {
   "property": "C124",
   "status": "partial",
   "theorems": [
    "PySwitch.Props.C124_load_partial",
    "PySwitch.Props.C124_save_partial",
    "PySwitch.Props.C124_unsaved_witness",
    "PySwitch.Props.C124_lost_witness",
    "PySwitch.Props.C124_empty_witness",
    "PySwitch.Props.C124_load_witness",
    "PySwitch.Props.C124_finished",
    "PySwitch.Props.C124_saved"
   ],
   "note": "Partial: saving succeeds before the last chunk is sent (C124_unsaved_witness, C124_lost_witness), saving an empty file neither succeeds nor fails (C124_empty_witness), loading does not compare the path (C124_load_witness)."
  },
  {
   "property": "C125",
   "status": "partial",
   "theorems": [
    "PySwitch.Props.C125_loads",
    "PySwitch.Props.C125_used_partial",
    "PySwitch.Props.C125_interval_partial",
    "PySwitch.Props.C125_bridge",
    "PySwitch.Props.C125_emulator_partial",
    "PySwitch.Props.C125_interval_witness",
    "PySwitch.Props.C125_empty_witness"
   ],
   "note": "Partial: a number field left empty makes a config.py which cannot be loaded (C125_empty_witness; C125_loads is exact), and the controller uses the update interval for its statistics when 2000 is chosen (C125_interval_witness; C125_interval_partial is exact). Numbers are assumed to be written and read without loss."
  },
  {
   "property": "C126",
   "status": "partial",
   "theorems": [
    "PySwitch.Props.C126_used",
    "PySwitch.Props.C126_others",
    "PySwitch.Props.C126_place",
    "PySwitch.Props.C126_size",
    "PySwitch.Props.C126_order",
    "PySwitch.Props.C126_new",
    "PySwitch.Props.C126_remove",
    "PySwitch.Props.C126_names_partial",
    "PySwitch.Props.C126_dirty",
    "PySwitch.Props.C126_rename_partial",
    "PySwitch.Props.C126_layouts_partial",
    "PySwitch.Props.C126_nested_witness",
    "PySwitch.Props.C126_digit_witness",
    "PySwitch.Props.C126_callback_witness",
    "PySwitch.Props.C126_version_witness"
   ],
   "note": "Partial: names are only checked for the display itself and its direct children (C126_nested_witness; C126_names_partial is exact for displays without nested containers); names starting with a digit are accepted (C126_digit_witness); a change of the callback only is lost without asking (C126_callback_witness; C126_dirty is exact for the elements); the link which shows the version changes shared layouts (C126_version_witness). Used elements, other elements, position, size, order, new and removed elements are proved completely."
  },
  {
   "property": "C127",
   "status": "partial",
   "theorems": [
    "PySwitch.Props.C127_open",
    "PySwitch.Props.C127_questions",
    "PySwitch.Props.C127_tab_partial",
    "PySwitch.Props.C127_config_partial",
    "PySwitch.Props.C127_silent_witness",
    "PySwitch.Props.C127_drop_witness",
    "PySwitch.Props.C127_upload"
   ],
   "note": "Partial: text in an editor is discarded silently by applying the other editor, other edits, restarts, uploads, the back button and by folder events; unsaved changes by the back button and by folder events (witnesses)."
  },
  {
   "property": "C128",
   "status": "partial",
   "theorems": [
    "PySwitch.Props.C128_saved",
    "PySwitch.Props.C128_reopen",
    "PySwitch.Props.C128_failed",
    "PySwitch.Props.C128_web",
    "PySwitch.Props.C128_device",
    "PySwitch.Props.C128_folder",
    "PySwitch.Props.C128_marker",
    "PySwitch.Props.C128_clean_partial",
    "PySwitch.Props.C128_hardware_witness",
    "PySwitch.Props.C128_broken_witness",
    "PySwitch.Props.C128_folder_witness",
    "PySwitch.Props.C128_select_witness",
    "PySwitch.Props.C128_empty_witness",
    "PySwitch.Props.C128_reset"
   ],
   "note": "C128_clean_partial assumes that all configurations are for the same controller type (C128_hardware_witness otherwise). Events run one after the other."
  },
  {
   "property": "C129",
   "status": "partial",
   "theorems": [
    "PySwitch.Props.C129_unique",
    "PySwitch.Props.C129_kept",
    "PySwitch.Props.C129_rename_partial",
    "PySwitch.Props.C129_rename_same",
    "PySwitch.Props.C129_new",
    "PySwitch.Props.C129_list",
    "PySwitch.Props.C129_rename_witness"
   ],
   "note": "C129_rename_partial assumes that the new name is not in use (C129_rename_witness)."
  },
  {
   "property": "C130",
   "status": "partial",
   "theorems": [
    "PySwitch.Props.C130_preset_partial",
    "PySwitch.Props.C130_other_partial",
    "PySwitch.Props.C130_builtin",
    "PySwitch.Props.C130_distinct",
    "PySwitch.Props.C130_exact",
    "PySwitch.Props.C130_query",
    "PySwitch.Props.C130_folder",
    "PySwitch.Props.C130_encoding",
    "PySwitch.Props.C130_plus_witness",
    "PySwitch.Props.C130_percent_witness",
    "PySwitch.Props.C130_query_witness",
    "PySwitch.Props.C130_hash_witness"
   ],
   "note": "Partial: the property fails for names with + ? # and, for presets, % (witnesses; C130_exact and C130_query say what is opened instead, except for #). For all other names it is proved in full."
  },
  {
   "property": "C131",
   "status": "proved",
   "theorems": [
    "PySwitch.Props.C131_own",
    "PySwitch.Props.C131_tuner_known",
    "PySwitch.Props.C131_effect",
    "PySwitch.Props.C131_effect_led",
    "PySwitch.Props.C131_rig",
    "PySwitch.Props.C131_tap",
    "PySwitch.Props.C131_tuner"
   ],
   "note": "Composition of the models of switches, actions, effect slots, rigs, banks and tuner for the shipped inputs.py. C131_own (nothing else is written), C131_tuner_known, C131_effect, C131_effect_led, C131_rig (all histories of uses), C131_tap, C131_tuner."
  },
  {
   "property": "C132",
   "status": "partial",
   "theorems": [
    "PySwitch.Props.C132_leave_partial",
    "PySwitch.Props.C132_quiet_partial",
    "PySwitch.Props.C132_dark_partial",
    "PySwitch.Props.C132_light_witness",
    "PySwitch.Props.C132_toggle_witness",
    "PySwitch.Props.C132_hold_witness",
    "PySwitch.Props.C132_flash_witness",
    "PySwitch.Props.C132_lost_witness"
   ],
   "note": "C132_leave_partial and C132_quiet_partial for presses which begin and end while the tuner is on. The full property does not hold: a switch pressed in the tuner and released after it acts on release (C132_toggle_witness), a pending hold acts in the tuner (C132_hold_witness), a press begun in the tuner and ended after it makes the next visit end at once (C132_flash_witness), and after a loss of the connection the switches stay overridden (C132_lost_witness)."
  },
  {
   "property": "C133",
   "status": "partial",
   "theorems": [
    "PySwitch.Props.C133_rig",
    "PySwitch.Props.C133_uses",
    "PySwitch.Props.C133_name_partial",
    "PySwitch.Props.C133_reported_partial",
    "PySwitch.Props.C133_program_witness",
    "PySwitch.Props.C133_name_witness",
    "PySwitch.Props.C133_swallowed_witness",
    "PySwitch.Props.C133_names"
   ],
   "note": "The selection of rigs is proved for all histories (C133_rig, C133_uses). Reports (name, rig as known by PySwitch) hold as long as rigs are not selected by their number: the code violates that (C133_program_witness, C133_name_witness), and a lost release makes the next press ineffective (C133_swallowed_witness)."
  },
  {
   "property": "C134",
   "status": "proved",
   "theorems": [
    "PySwitch.Props.C134_tempo",
    "PySwitch.Props.C134_light",
    "PySwitch.Props.C134_tuner"
   ],
   "note": "Messages which set the tempo, tuner mode or morph state must be complete (13 bytes)."
  },
  {
   "property": "C135",
   "status": "partial",
   "theorems": [
    "PySwitch.Props.C135_morph_partial",
    "PySwitch.Props.C135_fade",
    "PySwitch.Props.C135_arrives",
    "PySwitch.Props.C135_editor",
    "PySwitch.Props.C135_continues_witness",
    "PySwitch.Props.C135_fast_witness"
   ],
   "note": "The reported state is proved to follow the specification for every history. That a newly selected rig is not morphed and that morphing takes the time set does not hold: C135_continues_witness, C135_fast_witness."
  },
  {
   "property": "C136",
   "status": "partial",
   "theorems": [
    "PySwitch.Props.C136_led_partial",
    "PySwitch.Props.C136_tuner",
    "PySwitch.Props.C136_early_witness",
    "PySwitch.Props.C136_emptied_witness"
   ],
   "note": "Composition of the shipped configuration (C131) with the virtual Kemper (C133) over two cables. Full for the tuner; for the LED the slot must not be empty at any time (C136_emptied_witness). Presses at any time are covered; the report of the tuner mode, which follows the connection, must have arrived too (C136_early_witness shows why)."
  },
  {
   "property": "C137",
   "status": "partial",
   "theorems": [
    "PySwitch.Props.C137_unchanged_partial",
    "PySwitch.Props.C137_no_defaults",
    "PySwitch.Props.C137_added_witness",
    "PySwitch.Props.C137_unlisted_witness",
    "PySwitch.Props.C137_order_witness",
    "PySwitch.Props.C137_quoted_page_witness",
    "PySwitch.Props.C137_quotes_witness",
    "PySwitch.Props.C137_broken_witness",
    "PySwitch.Props.C137_unknown_witness",
    "PySwitch.Props.C137_range",
    "PySwitch.Props.C137_range_only"
   ],
   "note": "Proved for all actions which the inputs can show (Editable): every parameter which is given, or whose python default is the default of the dialog, keeps its value up to quotes; hold, name and pager are kept; the result has no arguments with defaults. The code violates the full statement: other default in the dialog (preview_reset_mapping is added), values not among the options get lost, select_page before pages is lost, page ids with double quotes, inner quotes lost or broken code, unknown arguments throw (witnesses)."
  },
  {
   "property": "C138",
   "status": "proved",
   "theorems": [
    "PySwitch.Props.C138_assign",
    "PySwitch.Props.C138_assign_form",
    "PySwitch.Props.C138_page"
   ],
   "note": "Full statement for all sets of names and ids; the form of the name (first free number) as well."
  },
  {
   "property": "C139",
   "status": "partial",
   "theorems": [
    "PySwitch.Props.C139_buttons_partial",
    "PySwitch.Props.C139_renamed_witness",
    "PySwitch.Props.C139_same_id_witness"
   ],
   "note": "Proved for all sequences of adding and removing, with distinct ids. The code violates the statement after renaming (the button keeps the old id) and for equal ids (witnesses)."
  },
  {
   "property": "C140",
   "status": "proved",
   "theorems": [
    "PySwitch.Props.C140_taken_over",
    "PySwitch.Props.C140_others",
    "PySwitch.Props.C140_unlisted_witness"
   ],
   "note": "Proved for every old dialog and all parameters other than the choice of a page. A value which the new input cannot show leaves a selection empty (C140_unlisted_witness)."
  },
  {
   "property": "C141",
   "status": "partial",
   "theorems": [
    "PySwitch.Props.C141_edits_partial",
    "PySwitch.Props.C141_settles",
    "PySwitch.Props.C141_drag_keeps",
    "PySwitch.Props.C141_untouched",
    "PySwitch.Props.C141_fast_witness",
    "PySwitch.Props.C141_lost_witness",
    "PySwitch.Props.C141_dragged_witness"
   ],
   "note": "Proved for users who wait for the effects of each edit (C141_edits_partial, C141_settles, C141_drag_keeps). Against the full statement: two edits within 100 ms (C141_fast_witness), a restart between the two timers of one edit (C141_lost_witness), dragging while an edit is left (C141_dragged_witness). That other inputs stay as they are is proved for all schedules (C141_untouched)."
  },
  {
   "property": "C142",
   "status": "partial",
   "theorems": [
    "PySwitch.Props.C142_search_partial",
    "PySwitch.Props.C142_listeners",
    "PySwitch.Props.C142_no_failure_after_success",
    "PySwitch.Props.C142_pairs",
    "PySwitch.Props.C142_ports",
    "PySwitch.Props.C142_same_name_failures_witness",
    "PySwitch.Props.C142_same_name_successes_witness",
    "PySwitch.Props.C142_same_name_both_witness",
    "PySwitch.Props.C142_manufacturer_witness"
   ],
   "note": "Proved for ports with different names (C142_search_partial, C142_listeners, C142_ports). Against the full statement: attempts are kept by the name of the port, so two devices of the same name lead to several results (C142_same_name_*_witness), and ports are looked up by name only (C142_manufacturer_witness). For all names there is no failure after a success (C142_no_failure_after_success)."
  },
  {
   "property": "C143",
   "status": "partial",
   "theorems": [
    "PySwitch.Props.C143_order",
    "PySwitch.Props.C143_fits_partial",
    "PySwitch.Props.C143_all_partial",
    "PySwitch.Props.C143_lost_witness",
    "PySwitch.Props.C143_too_long_witness"
   ],
   "note": "Order, no doubling and no change are proved for all histories. That nothing is lost holds when there is room for each message at each call, or when each round of messages is read completely before the next; otherwise a message which has been taken from the queue is lost (witnesses)."
  },
  {
   "property": "C144",
   "status": "partial",
   "theorems": [
    "PySwitch.Props.C144_one_engine_partial",
    "PySwitch.Props.C144_ticks_partial",
    "PySwitch.Props.C144_stopped_partial",
    "PySwitch.Props.C144_run_partial",
    "PySwitch.Props.C144_stop_ends_partial",
    "PySwitch.Props.C144_overlap_witness",
    "PySwitch.Props.C144_double_witness",
    "PySwitch.Props.C144_broken_config_witness"
   ],
   "note": "Proved for calls made one after the other (the end of stop() also needs that no configuration had an error). Overlapping calls may leave an engine behind that ticks forever or start one twice, and after a configuration with an error no call ever ends (witnesses)."
  },
  {
   "property": "C145",
   "status": "proved",
   "theorems": [
    "PySwitch.Props.C145_rows",
    "PySwitch.Props.C145_total",
    "PySwitch.Props.C145_message",
    "PySwitch.Props.C145_bounded",
    "PySwitch.Props.C145_reload",
    "PySwitch.Props.C145_list",
    "PySwitch.Props.C145_ignore"
   ],
   "note": ""
  },
  {
   "property": "C146",
   "status": "partial",
   "theorems": [
    "PySwitch.Props.C146_listens",
    "PySwitch.Props.C146_connected",
    "PySwitch.Props.C146_timeout",
    "PySwitch.Props.C146_answer",
    "PySwitch.Props.C146_count",
    "PySwitch.Props.C146_one_partial",
    "PySwitch.Props.C146_reconnect_witness",
    "PySwitch.Props.C146_endless_witness",
    "PySwitch.Props.C146_load_witness",
    "PySwitch.Props.C146_save_witness"
   ],
   "note": "Partial: the bridge of the former connection is never detached, so after connecting to A, B and A two bridges listen to A (C146_reconnect_witness). Then the request which looks for the controller causes messages without end under every schedule (C146_endless_witness), files of three chunks cannot be loaded and files of two chunks not be saved (C146_load_witness, C146_save_witness). Proved for all histories: the connection's bridge listens, timeouts leave nothing behind, and the number of listening bridges is the number of connections made; it is one when no port is connected twice."
  },
  {
   "property": "C147",
   "status": "partial",
   "theorems": [
    "PySwitch.Props.C147_switch",
    "PySwitch.Props.C147_idle",
    "PySwitch.Props.C147_push_partial",
    "PySwitch.Props.C147_missed_witness",
    "PySwitch.Props.C147_touch_witness",
    "PySwitch.Props.C147_cancel_witness",
    "PySwitch.Props.C147_comments_partial",
    "PySwitch.Props.C147_comment_witness",
    "PySwitch.Props.C147_pot",
    "PySwitch.Props.C147_nearest",
    "PySwitch.Props.C147_turn",
    "PySwitch.Props.C147_wheel"
   ],
   "note": "Partial: pushes shorter than the time between two reads are not seen (C147_missed_witness), a tap on a touch screen can be seen as two pushes because the events made up for the mouse are not prevented (C147_touch_witness), a cancelled touch leaves the switch pushed (C147_cancel_witness), and the monitor tells releases without a push (C147_comment_witness). Proved for all histories: reads agree with what the user holds, wheels turn by the sum of the ways, potentiometers keep the last position."
  },
  {
   "property": "C148",
   "status": "partial",
   "theorems": [
    "PySwitch.Props.C148_words",
    "PySwitch.Props.C148_width",
    "PySwitch.Props.C148_full",
    "PySwitch.Props.C148_blank_witness",
    "PySwitch.Props.C148_lines",
    "PySwitch.Props.C148_place",
    "PySwitch.Props.C148_pixel",
    "PySwitch.Props.C148_off",
    "PySwitch.Props.C148_order_partial",
    "PySwitch.Props.C148_bright_witness",
    "PySwitch.Props.C148_leds"
   ],
   "note": "Partial: the first line starts with a blank, and above a first word which does not fit there is an empty line (C148_blank_witness); components from a third of the brightness on are all shown alike (C148_bright_witness). Proved: words are kept, lines are full and not too wide, positions of lines, the pixels of all trees of rectangles, the last color of each LED, off exactly for black, order of brightness up to a third."
  },
  {
   "property": "C149",
   "status": "proved",
   "theorems": [
    "PySwitch.Props.C149_one_at_a_time",
    "PySwitch.Props.C149_messages",
    "PySwitch.Props.C149_remembered"
   ],
   "note": "For all histories. The creation of a virtual client may take any time."
  },
  {
   "property": "C150",
   "status": "proved",
   "theorems": [
    "PySwitch.Props.C150_most_specific",
    "PySwitch.Props.C150_bytes",
    "PySwitch.Props.C150_round_trip",
    "PySwitch.Props.C150_not_imported",
    "PySwitch.Props.C150_stream",
    "PySwitch.Props.C150_notes",
    "PySwitch.Props.C150_notes_refused"
   ],
   "note": "Complete for all fourteen types."
  },
  {
   "property": "C151",
   "status": "partial",
   "theorems": [
    "PySwitch.Props.C151_chosen_partial",
    "PySwitch.Props.C151_automatic",
    "PySwitch.Props.C151_search_wins_witness",
    "PySwitch.Props.C151_search_wins_port_witness",
    "PySwitch.Props.C151_name_witness"
   ],
   "note": "Partial: the choice is followed if nothing was pending when it was made and no port has a name starting with virtual; the witnesses show both cases where it is not followed."
  },
  {
   "property": "C152",
   "status": "partial",
   "theorems": [
    "PySwitch.Props.C152_broken_partial",
    "PySwitch.Props.C152_bend_witness"
   ],
   "note": "Partial: not for pitch bend messages with a status byte as first data byte (witness)."
  },
  {
   "property": "C153",
   "status": "proved",
   "theorems": [
    "PySwitch.Props.C153_data",
    "PySwitch.Props.C153_marked",
    "PySwitch.Props.C153_stored",
    "PySwitch.Props.C153_folder"
   ],
   "note": "Complete for the model of interleaved saving."
  },
  {
   "property": "C154",
   "status": "partial",
   "theorems": [
    "PySwitch.Props.C154_clean_partial",
    "PySwitch.Props.C154_lost_witness",
    "PySwitch.Props.C154_torn_witness",
    "PySwitch.Props.C154_order_witness"
   ],
   "note": "Partial: proved if nothing is changed while saving; the code violates it otherwise (witnesses)."
  },
  {
   "property": "C155",
   "status": "proved",
   "theorems": [
    "PySwitch.Props.C155_choose",
    "PySwitch.Props.C155_shown",
    "PySwitch.Props.C155_round",
    "PySwitch.Props.C155_named",
    "PySwitch.Props.C155_other_witness"
   ],
   "note": "Complete for colours as tuples of numbers and names of the firmware's colours."
  },
  {
   "property": "C156",
   "status": "proved",
   "theorems": [
    "PySwitch.Props.C156_displayed",
    "PySwitch.Props.C156_select",
    "PySwitch.Props.C156_selectName",
    "PySwitch.Props.C156_panel",
    "PySwitch.Props.C156_tabs",
    "PySwitch.Props.C156_keeps",
    "PySwitch.Props.C156_remembered",
    "PySwitch.Props.C156_none",
    "PySwitch.Props.C156_restart",
    "PySwitch.Props.C156_first"
   ],
   "note": "Complete for the modelled part."
  },
  {
   "property": "C157",
   "status": "partial",
   "theorems": [
    "PySwitch.Props.C157_active_partial",
    "PySwitch.Props.C157_removed_witness",
    "PySwitch.Props.C157_start_witness"
   ],
   "note": "Partial: proved from the first start as long as the active tab is not removed; the code violates it otherwise (witnesses)."
  },
  {
   "property": "C158",
   "status": "proved",
   "theorems": [
    "PySwitch.Props.C158_items",
    "PySwitch.Props.C158_sorted",
    "PySwitch.Props.C158_click",
    "PySwitch.Props.C158_link",
    "PySwitch.Props.C158_closed",
    "PySwitch.Props.C158_back",
    "PySwitch.Props.C158_reachable"
   ],
   "note": "Complete for the modelled part; going up is stated for trees whose callable entries have no children, as in the application."
  },
  {
   "property": "C159",
   "status": "partial",
   "theorems": [
    "PySwitch.Props.C159_reopen_partial",
    "PySwitch.Props.C159_same_partial",
    "PySwitch.Props.C159_text_witness",
    "PySwitch.Props.C159_gone_witness"
   ],
   "note": "Partial: proved for unambiguous texts if the folder is still there; the code violates it otherwise (witnesses)."
  },
  {
   "property": "C160",
   "status": "proved",
   "theorems": [
    "PySwitch.Props.C160_accepts",
    "PySwitch.Props.C160_echo",
    "PySwitch.Props.C160_search",
    "PySwitch.Props.C160_virtual",
    "PySwitch.Props.C160_set_witness",
    "PySwitch.Props.C160_incomplete_witness"
   ],
   "note": "For ports with different names (see C142) and complete messages; witnesses show what happens otherwise."
  },
  {
   "property": "C161",
   "status": "proved",
   "theorems": [
    "PySwitch.Props.C161_panel"
   ],
   "note": "For one button at a time; the rig is reported after each push and release."
  },
  {
   "property": "C162",
   "status": "partial",
   "theorems": [
    "PySwitch.Props.C162_panel_partial",
    "PySwitch.Props.C162_rig_up_witness",
    "PySwitch.Props.C162_bank_up_witness",
    "PySwitch.Props.C162_device_witness"
   ],
   "note": "Missing: rig up/down, plain bank up/down and selections at the device while a bank is preselected, for which it does not hold (witnesses)."
  },
  {
   "property": "C163",
   "status": "partial",
   "theorems": [
    "PySwitch.Props.C163_hold_partial",
    "PySwitch.Props.C163_press",
    "PySwitch.Props.C163_same_slot_witness"
   ],
   "note": "Missing: pushing a button while another one which has selected the same slot is held, for which it does not hold (witness). Panels with preselection are not included."
  },
  {
   "property": "C164",
   "status": "proved",
   "theorems": [
    "PySwitch.Props.C164_shown",
    "PySwitch.Props.C164_new_code",
    "PySwitch.Props.C164_restart",
    "PySwitch.Props.C164_load"
   ],
   "note": "Assumes that generated code is accepted by python and parsed to what it was generated from (libcst is lossless)."
  },
  {
   "property": "C165",
   "status": "partial",
   "theorems": [
    "PySwitch.Props.C165_edit_partial",
    "PySwitch.Props.C165_result",
    "PySwitch.Props.C165_lost_witness"
   ],
   "note": "Missing: edits while the configuration has code which python does not accept; they replace this code (witness)."
  },
  {
   "property": "C166",
   "status": "partial",
   "theorems": [
    "PySwitch.Props.C166_rig_partial",
    "PySwitch.Props.C166_morph_partial",
    "PySwitch.Props.C166_bank_partial",
    "PySwitch.Props.C166_unambiguous",
    "PySwitch.Props.C166_panel_partial",
    "PySwitch.Props.C166_none_witness",
    "PySwitch.Props.C166_preselect_witness"
   ],
   "note": "Proved for all calls except those with another rig but no rig, and those which preselect and have another bank: there the name is wrong (witnesses). The panel theorem has the hypothesis Allowed of C162."
  },
  {
   "property": "C167",
   "status": "partial",
   "theorems": [
    "PySwitch.Props.C167_changes_partial",
    "PySwitch.Props.C167_shown_partial",
    "PySwitch.Props.C167_others",
    "PySwitch.Props.C167_before_restart",
    "PySwitch.Props.C167_no_number",
    "PySwitch.Props.C167_second_change_witness",
    "PySwitch.Props.C167_zero_witness",
    "PySwitch.Props.C167_empty_witness",
    "PySwitch.Props.C167_negative_witness",
    "PySwitch.Props.C167_missing_witness"
   ],
   "note": "Proved for careful histories (one change per opening, restart before the next one, hold time a natural number, shown time not 0) and, for other switches, for all histories. Witnesses show that each restriction is needed."
  },
  {
   "property": "C168",
   "status": "partial",
   "theorems": [
    "PySwitch.Props.C168_no_error",
    "PySwitch.Props.C168_calls_partial",
    "PySwitch.Props.C168_pairs_partial",
    "PySwitch.Props.C168_momentary_partial",
    "PySwitch.Props.C168_hold",
    "PySwitch.Props.C168_switch",
    "PySwitch.Props.C168_held_witness",
    "PySwitch.Props.C168_reset_witness",
    "PySwitch.Props.C168_same_switch_witness",
    "PySwitch.Props.C168_toggle_witness"
   ],
   "note": "Proved for good configurations (page changing action first, other actions of that switch without page) and histories without page changes while another switch is down; hold switches and absence of errors for all histories. Witnesses show that the restrictions are needed."
  },
  {
   "property": "C169",
   "status": "partial",
   "theorems": [
    "PySwitch.Props.C169_popup_partial",
    "PySwitch.Props.C169_asked",
    "PySwitch.Props.C169_container_witness",
    "PySwitch.Props.C169_cross_witness",
    "PySwitch.Props.C169_timer_witness",
    "PySwitch.Props.C169_hidden_witness"
   ],
   "note": "Calls and visibility proved for histories with one popup at a time; the question for all histories. Witnesses for the rest."
  },
  {
   "property": "C170",
   "status": "partial",
   "theorems": [
    "PySwitch.Props.C170_enabled",
    "PySwitch.Props.C170_pages_partial",
    "PySwitch.Props.C170_disabled",
    "PySwitch.Props.C170_jump_witness"
   ],
   "note": "C170_enabled describes all histories of readings for direct actions, C170_disabled holds for all actions. The full statement is violated: a parameter jumps when its page is selected after turning on another page (C170_jump_witness). C170_pages_partial assumes that the wheel has the same position as before then."
  },
  {
   "property": "C171",
   "status": "proved",
   "theorems": [
    "PySwitch.Props.C171_accept",
    "PySwitch.Props.C171_shown"
   ],
   "note": "Hypothesis: an action has a preview iff it has a display (EncoderAction.py:67-79). Values of -1 are never sent by the code (initial value), so they are excluded in C171_shown."
  },
  {
   "property": "C172",
   "status": "partial",
   "theorems": [
    "PySwitch.Props.C172_visible_partial",
    "PySwitch.Props.C172_rig_witness",
    "PySwitch.Props.C172_cancel_witness"
   ],
   "note": "Missing: actions with reset mappings and cancel buttons for a part of the actions of a display (false there, see the witnesses)."
  },
  {
   "property": "C173",
   "status": "proved",
   "theorems": [
    "PySwitch.Props.C173_visible",
    "PySwitch.Props.C173_error"
   ],
   "note": "Rejected transfers are assumed to be passed to Controller.handle by their callers."
  },
  {
   "property": "C174",
   "status": "partial",
   "theorems": [
    "PySwitch.Props.C174_complete_partial",
    "PySwitch.Props.C174_text_partial",
    "PySwitch.Props.C174_hint",
    "PySwitch.Props.C174_tag_witness",
    "PySwitch.Props.C174_device_witness"
   ],
   "note": "Missing: texts with something like a tag and errors of the device outside of transfers (false there, see the witnesses)."
  },
  {
   "property": "C175",
   "status": "partial",
   "theorems": [
    "PySwitch.Props.C175_first_partial",
    "PySwitch.Props.C175_still_partial",
    "PySwitch.Props.C175_plugged_witness"
   ],
   "note": "Missing: ports which come or go after MIDI access has been granted (false there, see the witness)."
  },
  {
   "property": "C176",
   "status": "partial",
   "theorems": [
    "PySwitch.Props.C176_later_partial",
    "PySwitch.Props.C176_first_partial",
    "PySwitch.Props.C176_overlap_witness",
    "PySwitch.Props.C176_failed_witness"
   ],
   "note": "Missing: callers while another one is loading, and failing requests (false there, see the witnesses)."
  },
  {
   "property": "C177",
   "status": "partial",
   "theorems": [
    "PySwitch.Props.C177_code_partial",
    "PySwitch.Props.C177_shown_partial",
    "PySwitch.Props.C177_others",
    "PySwitch.Props.C177_number_witness",
    "PySwitch.Props.C177_sum_witness",
    "PySwitch.Props.C177_text_witness",
    "PySwitch.Props.C177_empty_witness"
   ],
   "note": "Missing: parameters with numbers and empty inputs (false there, see the witnesses). C177_others has no such condition."
  },
  {
   "property": "C178",
   "status": "partial",
   "theorems": [
    "PySwitch.Props.C178_code_partial",
    "PySwitch.Props.C178_independent",
    "PySwitch.Props.C178_shown_partial",
    "PySwitch.Props.C178_again_partial",
    "PySwitch.Props.C178_font_witness",
    "PySwitch.Props.C178_number",
    "PySwitch.Props.C178_font",
    "PySwitch.Props.C178_note_witness",
    "PySwitch.Props.C178_deviance_witness",
    "PySwitch.Props.C178_layout_witness"
   ],
   "note": "Missing: the font and the selections of mappings (false there, see the witnesses). C178_independent has no such condition."
  },
  {
   "property": "C179",
   "status": "partial",
   "theorems": [
    "PySwitch.Props.C179_choose_partial",
    "PySwitch.Props.C179_remove",
    "PySwitch.Props.C179_none_witness",
    "PySwitch.Props.C179_values",
    "PySwitch.Props.C179_variable_witness"
   ],
   "note": "Missing: the text None (false there, see the witness). C179_remove has no such condition."
  },
  {
   "property": "C180",
   "status": "partial",
   "theorems": [
    "PySwitch.Props.C180_same",
    "PySwitch.Props.C180_range",
    "PySwitch.Props.C180_different_partial",
    "PySwitch.Props.C180_names_witness"
   ],
   "note": "Missing in C180_different_partial: names which become the same text together (false there, see the witness)."
  },
  {
   "property": "C181",
   "status": "partial",
   "theorems": [
    "PySwitch.Props.C181_used_partial",
    "PySwitch.Props.C181_shown_partial",
    "PySwitch.Props.C181_debug",
    "PySwitch.Props.C181_waits",
    "PySwitch.Props.C181_reset",
    "PySwitch.Props.C181_all_witness",
    "PySwitch.Props.C181_text_witness",
    "PySwitch.Props.C181_range_witness"
   ],
   "note": "Missing: texts which are no channel are not refused (see the witnesses)."
  },
  {
   "property": "C182",
   "status": "proved",
   "theorems": [
    "PySwitch.Props.C182_examples",
    "PySwitch.Props.C182_left_out",
    "PySwitch.Props.C182_templates",
    "PySwitch.Props.C182_default",
    "PySwitch.Props.C182_once",
    "PySwitch.Props.C182_opens"
   ],
   "note": "In full, for the names the property states; links with other characters are the subject of C130."
  },
  {
   "property": "C183",
   "status": "partial",
   "theorems": [
    "PySwitch.Props.C183_leads_partial",
    "PySwitch.Props.C183_templates",
    "PySwitch.Props.C183_empty_witness"
   ],
   "note": "C183_templates in full. Missing for examples: folders with files of which all subfolders are left out (false there, see the witness)."
  },
  {
   "property": "C184",
   "status": "partial",
   "theorems": [
    "PySwitch.Props.C184_messages",
    "PySwitch.Props.C184_first",
    "PySwitch.Props.C184_rate_partial",
    "PySwitch.Props.C184_rounded",
    "PySwitch.Props.C184_late",
    "PySwitch.Props.C184_late_witness"
   ],
   "note": "The lists in full. Missing for the rates: timers which are not exact (false there, see the witness)."
  },
  {
   "property": "C185",
   "status": "partial",
   "theorems": [
    "PySwitch.Props.C185_offered",
    "PySwitch.Props.C185_known",
    "PySwitch.Props.C185_unknown_partial",
    "PySwitch.Props.C185_add",
    "PySwitch.Props.C185_single_witness"
   ],
   "note": "Missing: unknown actions if the list has one action only (false there, see the witness)."
  },
  {
   "property": "C186",
   "status": "partial",
   "theorems": [
    "PySwitch.Props.C186_device_partial",
    "PySwitch.Props.C186_default",
    "PySwitch.Props.C186_comment_witness"
   ],
   "note": "Missing: configurations which mention the modules of other devices without importing them (false there, see the witness)."
  },
  {
   "property": "C187",
   "status": "proved",
   "theorems": [
    "PySwitch.Props.C187_fits",
    "PySwitch.Props.C187_shape"
   ],
   "note": "Exact fractions instead of floating point numbers."
  },
  {
   "property": "C188",
   "status": "partial",
   "theorems": [
    "PySwitch.Props.C188_functions",
    "PySwitch.Props.C188_nested_witness",
    "PySwitch.Props.C188_colours_partial",
    "PySwitch.Props.C188_none",
    "PySwitch.Props.C188_double_witness",
    "PySwitch.Props.C188_inner_witness",
    "PySwitch.Props.C188_local_witness"
   ],
   "note": "Missing: inner classes with the name of the class, assignments with more than one name (false there, see the witnesses)."
  },
  {
   "property": "C189",
   "status": "proved",
   "theorems": [
    "PySwitch.Props.C189_offered",
    "PySwitch.Props.C189_once",
    "PySwitch.Props.C189_sorted",
    "PySwitch.Props.C189_fails"
   ],
   "note": "Texts are ordered by character codes instead of UTF-16 units."
  },
  {
   "property": "C190",
   "status": "proved",
   "theorems": [
    "PySwitch.Props.C190_parameter",
    "PySwitch.Props.C190_function",
    "PySwitch.Props.C190_clients",
    "PySwitch.Props.C190_catalogue"
   ],
   "note": "For files without double descriptions (the file of the repository has none)."
  },
  {
   "property": "C191",
   "status": "partial",
   "theorems": [
    "PySwitch.Props.C191_looks",
    "PySwitch.Props.C191_start",
    "PySwitch.Props.C191_running_partial",
    "PySwitch.Props.C191_no_midi",
    "PySwitch.Props.C191_stopped_witness"
   ],
   "note": "Missing: an emulator which has stopped (false there, see the witness)."
  },
  {
   "property": "C192",
   "status": "proved",
   "theorems": [
    "PySwitch.Props.C192_inside",
    "PySwitch.Props.C192_order",
    "PySwitch.Props.C192_tight"
   ],
   "note": "Sizes and margins which are not negative; whole numbers of any unit."
  },
  {
   "property": "C193",
   "status": "proved",
   "theorems": [
    "PySwitch.Props.C193_listed",
    "PySwitch.Props.C193_fails",
    "PySwitch.Props.C193_lookup",
    "PySwitch.Props.C193_shipped"
   ],
   "note": ""
  },
  {
   "property": "C194",
   "status": "partial",
   "theorems": [
    "PySwitch.Props.C194_drag_partial",
    "PySwitch.Props.C194_near",
    "PySwitch.Props.C194_size",
    "PySwitch.Props.C194_resize",
    "PySwitch.Props.C194_lost_witness"
   ],
   "note": "Missing: movements by parts of pixels of the display (false there, see the witness; C194_near bounds the error)."
  },
  {
   "property": "C195",
   "status": "partial",
   "theorems": [
    "PySwitch.Props.C195_listed",
    "PySwitch.Props.C195_direct_partial",
    "PySwitch.Props.C195_no_loop",
    "PySwitch.Props.C195_applies",
    "PySwitch.Props.C195_latest",
    "PySwitch.Props.C195_page",
    "PySwitch.Props.C195_link_witness",
    "PySwitch.Props.C195_dot_witness"
   ],
   "note": "Missing: the links of the page of the versions (false, see C195_link_witness)."
  },
  {
   "property": "C196",
   "status": "partial",
   "theorems": [
    "PySwitch.Props.C196_client_partial",
    "PySwitch.Props.C196_local",
    "PySwitch.Props.C196_shipped",
    "PySwitch.Props.C196_found",
    "PySwitch.Props.C196_comment_witness",
    "PySwitch.Props.C196_twice_witness"
   ],
   "note": "Missing: import statements in which the names of several clients occur (false there, see the witnesses)."
  },
  {
   "property": "C197",
   "status": "partial",
   "theorems": [
    "PySwitch.Props.C197_leds_partial",
    "PySwitch.Props.C197_display",
    "PySwitch.Props.C197_page",
    "PySwitch.Props.C197_callback",
    "PySwitch.Props.C197_assign",
    "PySwitch.Props.C197_proxy_witness",
    "PySwitch.Props.C197_position_witness"
   ],
   "note": "Missing: the LED icon for pager proxies and, for all icons, arguments without name (false there, see the witnesses)."
  },
  {
   "property": "C198",
   "status": "partial",
   "theorems": [
    "PySwitch.Props.C198_colour_partial",
    "PySwitch.Props.C198_numbered",
    "PySwitch.Props.C198_quotes_witness",
    "PySwitch.Props.C198_variable_witness"
   ],
   "note": "Missing: ids written in another notation than in the pager, colours given by variables (false there, see the witnesses)."
  },
  {
   "property": "C199",
   "status": "partial",
   "theorems": [
    "PySwitch.Props.C199_client_partial",
    "PySwitch.Props.C199_always",
    "PySwitch.Props.C199_virtual",
    "PySwitch.Props.C199_shipped",
    "PySwitch.Props.C199_most_witness",
    "PySwitch.Props.C199_comment_witness"
   ],
   "note": "Missing: configurations which mention the modules of both clients (false there, see the witnesses)."
  },
  {
   "property": "C200",
   "status": "partial",
   "theorems": [
    "PySwitch.Props.C200_bounds_partial",
    "PySwitch.Props.C200_calculation_witness",
    "PySwitch.Props.C200_twice_witness"
   ],
   "note": "Missing: calculations, variables which are assigned several times (false there, see the witnesses)."
  },
  {
   "property": "C201",
   "status": "partial",
   "theorems": [
    "PySwitch.Props.C201_functions",
    "PySwitch.Props.C201_unreadable",
    "PySwitch.Props.C201_missing",
    "PySwitch.Props.C201_files",
    "PySwitch.Props.C201_classes_partial",
    "PySwitch.Props.C201_private_witness",
    "PySwitch.Props.C201_base_witness"
   ],
   "note": "Functions: full. Missing for classes: sources with private, inner or local classes, or with bases which are not names (false there, see the witnesses)."
  },
  {
   "property": "C202",
   "status": "partial",
   "theorems": [
    "PySwitch.Props.C202_checkbox",
    "PySwitch.Props.C202_click",
    "PySwitch.Props.C202_message",
    "PySwitch.Props.C202_note_partial",
    "PySwitch.Props.C202_number",
    "PySwitch.Props.C202_shown",
    "PySwitch.Props.C202_flat_witness",
    "PySwitch.Props.C202_stale_witness",
    "PySwitch.Props.C202_morph_witness",
    "PySwitch.Props.C202_morph"
   ],
   "note": "Missing: names with flats, which all set C, texts which do not change the note, the morphing checkbox before the first click (false there, see the witnesses)."
  },
  {
   "property": "C203",
   "status": "partial",
   "theorems": [
    "PySwitch.Props.C203_name",
    "PySwitch.Props.C203_words",
    "PySwitch.Props.C203_none",
    "PySwitch.Props.C203_distinct_partial",
    "PySwitch.Props.C203_direction",
    "PySwitch.Props.C203_fixed",
    "PySwitch.Props.C203_effect",
    "PySwitch.Props.C203_argument_witness",
    "PySwitch.Props.C203_offset_witness"
   ],
   "note": "Missing: actions which differ in the argument of the mapping only; offsets which are no numbers (false there, see the witnesses)."
  },
  {
   "property": "C204",
   "status": "partial",
   "theorems": [
    "PySwitch.Props.C204_received",
    "PySwitch.Props.C204_sent",
    "PySwitch.Props.C204_protocol",
    "PySwitch.Props.C204_other",
    "PySwitch.Props.C204_distinct_partial",
    "PySwitch.Props.C204_bytes",
    "PySwitch.Props.C204_byte",
    "PySwitch.Props.C204_unknown",
    "PySwitch.Props.C204_short",
    "PySwitch.Props.C204_nrpn_witness",
    "PySwitch.Props.C204_hex_witness",
    "PySwitch.Props.C204_note_witness"
   ],
   "note": "Missing: different names for messages of different unknown NRPN parameters (false there, see the witness)."
  },
  {
   "property": "C205",
   "status": "proved",
   "theorems": [
    "PySwitch.Props.C205_all",
    "PySwitch.Props.C205_clients",
    "PySwitch.Props.C205_kemper",
    "PySwitch.Props.C205_names",
    "PySwitch.Props.C205_general",
    "PySwitch.Props.C205_other",
    "PySwitch.Props.C205_category_witness"
   ],
   "note": "The comparison of texts (localeCompare) is a parameter: an order in which the first characters with different places in the alphabet decide."
  },
  {
   "property": "C206",
   "status": "partial",
   "theorems": [
    "PySwitch.Props.C206_keys",
    "PySwitch.Props.C206_distinct",
    "PySwitch.Props.C206_custom_partial",
    "PySwitch.Props.C206_none",
    "PySwitch.Props.C206_quotes_witness"
   ],
   "note": "Missing: texts which contain quotes, and the empty text in double quotes (false there, see the witness)."
  },
  {
   "property": "C207",
   "status": "partial",
   "theorems": [
    "PySwitch.Props.C207_buttons",
    "PySwitch.Props.C207_text",
    "PySwitch.Props.C207_marks",
    "PySwitch.Props.C207_click_partial",
    "PySwitch.Props.C207_noPage",
    "PySwitch.Props.C207_stays",
    "PySwitch.Props.C207_own_partial",
    "PySwitch.Props.C207_plain",
    "PySwitch.Props.C207_fresh_witness",
    "PySwitch.Props.C207_quotes_witness",
    "PySwitch.Props.C207_unnamed_witness",
    "PySwitch.Props.C207_rename_witness"
   ],
   "note": "Missing: pages with double quotes in their ids, pagers without a name, and what is offered directly after a new name of a pager (false there, see the witnesses)."
  },
  {
   "property": "C208",
   "status": "proved",
   "theorems": [
    "PySwitch.Props.C208_shown",
    "PySwitch.Props.C208_button",
    "PySwitch.Props.C208_all",
    "PySwitch.Props.C208_stays",
    "PySwitch.Props.C208_label"
   ],
   "note": ""
  },
  {
   "property": "C209",
   "status": "partial",
   "theorems": [
    "PySwitch.Props.C209_search",
    "PySwitch.Props.C209_kind",
    "PySwitch.Props.C209_used_partial",
    "PySwitch.Props.C209_other",
    "PySwitch.Props.C209_alias_witness",
    "PySwitch.Props.C209_undefined_witness"
   ],
   "note": "Missing: variables which are not used in the inputs under their own name (false there, see the witness)."
  },
  {
   "property": "C210",
   "status": "partial",
   "theorems": [
    "PySwitch.Props.C210_input",
    "PySwitch.Props.C210_active_partial",
    "PySwitch.Props.C210_chosen",
    "PySwitch.Props.C210_typed",
    "PySwitch.Props.C210_remote_witness",
    "PySwitch.Props.C210_stale_witness"
   ],
   "note": "Missing: histories in which another device tells the number of the rig (false there, see the witness). The input is modelled as a number from 0 on."
  },
  {
   "property": "C211",
   "status": "partial",
   "theorems": [
    "PySwitch.Props.C211_shown",
    "PySwitch.Props.C211_told",
    "PySwitch.Props.C211_typed",
    "PySwitch.Props.C211_fast_partial",
    "PySwitch.Props.C211_message",
    "PySwitch.Props.C211_tapped",
    "PySwitch.Props.C211_first",
    "PySwitch.Props.C211_release",
    "PySwitch.Props.C211_repeated",
    "PySwitch.Props.C211_fast_witness",
    "PySwitch.Props.C211_faster_witness",
    "PySwitch.Props.C211_infinity_witness"
   ],
   "note": "Missing: typed tempos above 256 BPM while the parameter already tells the greatest tempo (false there, see the witness). Numbers typed are from 0 on, fractions are exact."
  },
  {
   "property": "C212",
   "status": "partial",
   "theorems": [
    "PySwitch.Props.C212_options",
    "PySwitch.Props.C212_rows",
    "PySwitch.Props.C212_buttons",
    "PySwitch.Props.C212_reload",
    "PySwitch.Props.C212_run",
    "PySwitch.Props.C212_message",
    "PySwitch.Props.C212_hint",
    "PySwitch.Props.C212_hex_partial",
    "PySwitch.Props.C212_clear",
    "PySwitch.Props.C212_hex_witness",
    "PySwitch.Props.C212_hint_witness"
   ],
   "note": "Missing: rows written before a click on the button for hexadecimal numbers, and the hint after a start with the button (false there, see the witnesses)."
  },
  {
   "property": "C213",
   "status": "proved",
   "theorems": [
    "PySwitch.Props.C213_messages",
    "PySwitch.Props.C213_marks",
    "PySwitch.Props.C213_again",
    "PySwitch.Props.C213_noInput",
    "PySwitch.Props.C213_unknown"
   ],
   "note": "The names of the inputs are different; a message for an input which does not exist is an exception (`C213_unknown`)."
  },
  {
   "property": "C214",
   "status": "partial",
   "theorems": [
    "PySwitch.Props.C214_order",
    "PySwitch.Props.C214_all",
    "PySwitch.Props.C214_text_partial",
    "PySwitch.Props.C214_heights",
    "PySwitch.Props.C214_offered",
    "PySwitch.Props.C214_shipped",
    "PySwitch.Props.C214_family_witness",
    "PySwitch.Props.C214_nan_witness"
   ],
   "note": "Heights are shown correctly for families without digits; false otherwise (`C214_family_witness`, `C214_nan_witness`)."
  }
 ]
}