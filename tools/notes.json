{
 "C06": "Proved for every split of channel messages and every split that does not cut a SysEx message. The full claim is false of the code (C06_sysex_split_lost).",
 "C100": "That CircuitPython refuses a pin in use is an assumption on the environment, part of the model.",
 "C101": "Partial: the switches of the configuration must all have LEDs; C101_dark_place shows the gap for the shipped configuration.",
 "C102": "Areas of content/display.py.",
 "C103": "C103_reload_partial: any limit on nested variables from the number of named parts on. C103_first_partial: files without the top variable, for trees without variables. C103_lost, C103_undefined: what is missing, the tree or its variables are silently not written into a file without the top variable.",
 "C104": "C104_unchanged_partial for files without stars, single quoted keys, second names for variables, variables set twice or to an empty list. C104_star, C104_single_quotes, C104_alias, C104_twice, C104_empty_list show that the code fails for each of these. C104_bounds: positional display bounds are saved with keywords of the same meaning.",
 "C105": "C105_rest: the untouched statements. C105_places: order and targets of all statements.",
 "C106": "C106_order_partial: holds if the new variables fit into the file (spec Fits). Missing: trees where an existing variable needs a new one. C106_too_late: there the saved file uses a variable before setting it.",
 "C107": "C107_imported_partial, C107_before_partial, C107_display_partial: for files which begin with a simple statement, without imports inside of functions and without a name twice in one import. C107_rest and C107_origin hold without restriction. Witnesses where the full statement fails: C107_function_first, C107_function_import, C107_other_module, C107_twice, C107_later.",
 "C108": "C108_messages, C108_keys: switches without hold actions; C108_hold: one press of a switch with a message for holding.",
 "C109": "C109_text_partial: the text. C109_wrong_color: the colour is not the configured one, as it is assigned to an attribute nothing uses.",
 "C113": "Closed loop of the protocol of PySwitch and that of the virtual device. C113_connects: established within a bounded time; C113_kept: never lost again, no loss reported; C113_recovers: after any history with interruptions. C113_too_short shows that the condition on the lease is needed (a lease of one second is sent as zero).",
 "C114": "Closed loop of the bidirectional client and the parameters of the virtual device. C114_agree: any history; C114_empty: both cables empty. Assumptions visible in Allowed/Healthy/Known: PySwitch sets numbers the device understands, nobody else sends values with the address, the device stays connected with parameter set 2.",
 "C115": "For files the editor can represent (as in C104) with literal inputs and literal lists of actions which are calls or variables for calls. Missing: pages or lists in variables, other expressions as actions, None entries, unknown page keys, ports in variables; each has a witness.",
 "C116": "Complete for the tree. The buffered hold actions are stale after setting (witness C116_stale_hold).",
 "C117": "Equivalence proved for all configurations for which the checks end, and exactly characterised when they end (C117_ends). Missing: with a display as positional argument the checks throw (C117_positional).",
 "C118": "Mutual exclusion and order for all histories; progress if no callback throws. C118_dead: after a failure nothing is started any more.",
 "C119": "Round trips and legality for all inputs and histories. Partial: text with a leading byte order mark or lone surrogates changes (C119_text_witness).",
 "C120": "One damaged half-byte, or two adjacent ones, after the command, and any damage of the checksum. Not covered: damage of the command (C120_command_witness) and wider damage (C120_three_witness).",
 "C121": "For all schedules; partial: text which can be encoded (see C122), damage the checksum shows (see C120), up to 16777216 events.",
 "C122": "Delivery and effort for all fair histories. Partial: empty files (C122_empty_witness), surrogates on a chunk border (C122_surrogates_witness), idle transmissions (C122_idle_witness).",
 "C123": "Partial: fails for the largest random number (C123_seed_witness, C123_lost_witness).",
 "C124": "Partial: saving succeeds before the last chunk is sent (C124_unsaved_witness, C124_lost_witness), saving an empty file neither succeeds nor fails (C124_empty_witness), loading does not compare the path (C124_load_witness).",
 "C125": "Partial: a number field left empty makes a config.py which cannot be loaded (C125_empty_witness; C125_loads is exact), and the controller uses the update interval for its statistics when 2000 is chosen (C125_interval_witness; C125_interval_partial is exact). Numbers are assumed to be written and read without loss.",
 "C126": "Partial: names are only checked for the display itself and its direct children (C126_nested_witness; C126_names_partial is exact for displays without nested containers); names starting with a digit are accepted (C126_digit_witness); a change of the callback only is lost without asking (C126_callback_witness; C126_dirty is exact for the elements); the link which shows the version changes shared layouts (C126_version_witness). Used elements, other elements, position, size, order, new and removed elements are proved completely.",
 "C127": "Partial: text in an editor is discarded silently by applying the other editor, other edits, restarts, uploads, the back button and by folder events; unsaved changes by the back button and by folder events (witnesses).",
 "C128": "C128_clean_partial assumes that all configurations are for the same controller type (C128_hardware_witness otherwise). Events run one after the other.",
 "C129": "C129_rename_partial assumes that the new name is not in use (C129_rename_witness).",
 "C130": "Partial: the property fails for names with + ? # and, for presets, % (witnesses; C130_exact and C130_query say what is opened instead, except for #). For all other names it is proved in full.",
 "C131": "Composition of the models of switches, actions, effect slots, rigs, banks and tuner for the shipped inputs.py. C131_own (nothing else is written), C131_tuner_known, C131_effect, C131_effect_led, C131_rig (all histories of uses), C131_tap, C131_tuner.",
 "C132": "C132_leave_partial and C132_quiet_partial for presses which begin and end while the tuner is on. The full property does not hold: a switch pressed in the tuner and released after it acts on release (C132_toggle_witness), a pending hold acts in the tuner (C132_hold_witness), a press begun in the tuner and ended after it makes the next visit end at once (C132_flash_witness), and after a loss of the connection the switches stay overridden (C132_lost_witness).",
 "C133": "The selection of rigs is proved for all histories (C133_rig, C133_uses). Reports (name, rig as known by PySwitch) hold as long as rigs are not selected by their number: the code violates that (C133_program_witness, C133_name_witness), and a lost release makes the next press ineffective (C133_swallowed_witness).",
 "C134": "Messages which set the tempo, tuner mode or morph state must be complete (13 bytes).",
 "C135": "The reported state is proved to follow the specification for every history. That a newly selected rig is not morphed and that morphing takes the time set does not hold: C135_continues_witness, C135_fast_witness.",
 "C136": "Composition of the shipped configuration (C131) with the virtual Kemper (C133) over two cables. Full for the tuner; for the LED the slot must not be empty at any time (C136_emptied_witness). Presses at any time are covered; the report of the tuner mode, which follows the connection, must have arrived too (C136_early_witness shows why).",
 "C137": "Proved for all actions which the inputs can show (Editable): every parameter which is given, or whose python default is the default of the dialog, keeps its value up to quotes; hold, name and pager are kept; the result has no arguments with defaults. The code violates the full statement: other default in the dialog (preview_reset_mapping is added), values not among the options get lost, select_page before pages is lost, page ids with double quotes, inner quotes lost or broken code, unknown arguments throw (witnesses).",
 "C138": "Full statement for all sets of names and ids; the form of the name (first free number) as well.",
 "C139": "Proved for all sequences of adding and removing, with distinct ids. The code violates the statement after renaming (the button keeps the old id) and for equal ids (witnesses).",
 "C14": "Proved that the hold actions repeat with more than the hold time between them and that the release triggers nothing; the clean restart holds only if no hold was left pending: C14_stale_hold shows the state left behind.",
 "C140": "Proved for every old dialog and all parameters other than the choice of a page. A value which the new input cannot show leaves a selection empty (C140_unlisted_witness).",
 "C141": "Proved for users who wait for the effects of each edit (C141_edits_partial, C141_settles, C141_drag_keeps). Against the full statement: two edits within 100 ms (C141_fast_witness), a restart between the two timers of one edit (C141_lost_witness), dragging while an edit is left (C141_dragged_witness). That other inputs stay as they are is proved for all schedules (C141_untouched).",
 "C142": "Proved for ports with different names (C142_search_partial, C142_listeners, C142_ports). Against the full statement: attempts are kept by the name of the port, so two devices of the same name lead to several results (C142_same_name_*_witness), and ports are looked up by name only (C142_manufacturer_witness). For all names there is no failure after a success (C142_no_failure_after_success).",
 "C143": "Order, no doubling and no change are proved for all histories. That nothing is lost holds when there is room for each message at each call, or when each round of messages is read completely before the next; otherwise a message which has been taken from the queue is lost (witnesses).",
 "C144": "Proved for calls made one after the other (the end of stop() also needs that no configuration had an error). Overlapping calls may leave an engine behind that ticks forever or start one twice, and after a configuration with an error no call ever ends (witnesses).",
 "C146": "Partial: the bridge of the former connection is never detached, so after connecting to A, B and A two bridges listen to A (C146_reconnect_witness). Then the request which looks for the controller causes messages without end under every schedule (C146_endless_witness), files of three chunks cannot be loaded and files of two chunks not be saved (C146_load_witness, C146_save_witness). Proved for all histories: the connection's bridge listens, timeouts leave nothing behind, and the number of listening bridges is the number of connections made; it is one when no port is connected twice.",
 "C147": "Partial: pushes shorter than the time between two reads are not seen (C147_missed_witness), a tap on a touch screen can be seen as two pushes because the events made up for the mouse are not prevented (C147_touch_witness), a cancelled touch leaves the switch pushed (C147_cancel_witness), and the monitor tells releases without a push (C147_comment_witness). Proved for all histories: reads agree with what the user holds, wheels turn by the sum of the ways, potentiometers keep the last position.",
 "C148": "Partial: the first line starts with a blank, and above a first word which does not fit there is an empty line (C148_blank_witness); components from a third of the brightness on are all shown alike (C148_bright_witness). Proved: words are kept, lines are full and not too wide, positions of lines, the pixels of all trees of rectangles, the last color of each LED, off exactly for black, order of brightness up to a third.",
 "C149": "For all histories. The creation of a virtual client may take any time.",
 "C15": "Proved for switches whose own hold state is clear; C15_stale_hold is the counterexample for a hold that was pending when the override was set.",
 "C150": "Complete for all fourteen types.",
 "C151": "Partial: the choice is followed if nothing was pending when it was made and no port has a name starting with virtual; the witnesses show both cases where it is not followed.",
 "C152": "Partial: not for pitch bend messages with a status byte as first data byte (witness).",
 "C153": "Complete for the model of interleaved saving.",
 "C154": "Partial: proved if nothing is changed while saving; the code violates it otherwise (witnesses).",
 "C155": "Complete for colours as tuples of numbers and names of the firmware's colours.",
 "C156": "Complete for the modelled part.",
 "C157": "Partial: proved from the first start as long as the active tab is not removed; the code violates it otherwise (witnesses).",
 "C158": "Complete for the modelled part; going up is stated for trees whose callable entries have no children, as in the application.",
 "C159": "Partial: proved for unambiguous texts if the folder is still there; the code violates it otherwise (witnesses).",
 "C160": "For ports with different names (see C142) and complete messages; witnesses show what happens otherwise.",
 "C161": "For one button at a time; the rig is reported after each push and release.",
 "C162": "Missing: rig up/down, plain bank up/down and selections at the device while a bank is preselected, for which it does not hold (witnesses).",
 "C163": "Missing: pushing a button while another one which has selected the same slot is held, for which it does not hold (witness). Panels with preselection are not included.",
 "C164": "Assumes that generated code is accepted by python and parsed to what it was generated from (libcst is lossless).",
 "C165": "Missing: edits while the configuration has code which python does not accept; they replace this code (witness).",
 "C166": "Proved for all calls except those with another rig but no rig, and those which preselect and have another bank: there the name is wrong (witnesses). The panel theorem has the hypothesis Allowed of C162.",
 "C167": "Proved for careful histories (one change per opening, restart before the next one, hold time a natural number, shown time not 0) and, for other switches, for all histories. Witnesses show that each restriction is needed.",
 "C168": "Proved for good configurations (page changing action first, other actions of that switch without page) and histories without page changes while another switch is down; hold switches and absence of errors for all histories. Witnesses show that the restrictions are needed.",
 "C169": "Calls and visibility proved for histories with one popup at a time; the question for all histories. Witnesses for the rest.",
 "C170": "C170_enabled describes all histories of readings for direct actions, C170_disabled holds for all actions. The full statement is violated: a parameter jumps when its page is selected after turning on another page (C170_jump_witness). C170_pages_partial assumes that the wheel has the same position as before then.",
 "C171": "Hypothesis: an action has a preview iff it has a display (EncoderAction.py:67-79). Values of -1 are never sent by the code (initial value), so they are excluded in C171_shown.",
 "C172": "Missing: actions with reset mappings and cancel buttons for a part of the actions of a display (false there, see the witnesses).",
 "C173": "Rejected transfers are assumed to be passed to Controller.handle by their callers.",
 "C174": "Missing: texts with something like a tag and errors of the device outside of transfers (false there, see the witnesses).",
 "C175": "Missing: ports which come or go after MIDI access has been granted (false there, see the witness).",
 "C176": "Missing: callers while another one is loading, and failing requests (false there, see the witnesses).",
 "C177": "Missing: parameters with numbers and empty inputs (false there, see the witnesses). C177_others has no such condition.",
 "C178": "Missing: the font and the selections of mappings (false there, see the witnesses). C178_independent has no such condition.",
 "C179": "Missing: the text None (false there, see the witness). C179_remove has no such condition.",
 "C180": "Missing in C180_different_partial: names which become the same text together (false there, see the witness).",
 "C181": "Missing: texts which are no channel are not refused (see the witnesses).",
 "C182": "In full, for the names the property states; links with other characters are the subject of C130.",
 "C183": "C183_templates in full. Missing for examples: folders with files of which all subfolders are left out (false there, see the witness).",
 "C184": "The lists in full. Missing for the rates: timers which are not exact (false there, see the witness).",
 "C185": "Missing: unknown actions if the list has one action only (false there, see the witness).",
 "C186": "Missing: configurations which mention the modules of other devices without importing them (false there, see the witness).",
 "C187": "Exact fractions instead of floating point numbers.",
 "C188": "Missing: inner classes with the name of the class, assignments with more than one name (false there, see the witnesses).",
 "C189": "Texts are ordered by character codes instead of UTF-16 units.",
 "C190": "For files without double descriptions (the file of the repository has none).",
 "C191": "Missing: an emulator which has stopped (false there, see the witness).",
 "C192": "Sizes and margins which are not negative; whole numbers of any unit.",
 "C194": "Missing: movements by parts of pixels of the display (false there, see the witness; C194_near bounds the error).",
 "C195": "Missing: the links of the page of the versions (false, see C195_link_witness).",
 "C196": "Missing: import statements in which the names of several clients occur (false there, see the witnesses).",
 "C197": "Missing: the LED icon for pager proxies and, for all icons, arguments without name (false there, see the witnesses).",
 "C198": "Missing: ids written in another notation than in the pager, colours given by variables (false there, see the witnesses).",
 "C199": "Missing: configurations which mention the modules of both clients (false there, see the witnesses).",
 "C200": "Missing: calculations, variables which are assigned several times (false there, see the witnesses).",
 "C201": "Functions: full. Missing for classes: sources with private, inner or local classes, or with bases which are not names (false there, see the witnesses).",
 "C202": "Missing: names with flats, which all set C, texts which do not change the note, the morphing checkbox before the first click (false there, see the witnesses).",
 "C203": "Missing: actions which differ in the argument of the mapping only; offsets which are no numbers (false there, see the witnesses).",
 "C204": "Missing: different names for messages of different unknown NRPN parameters (false there, see the witness).",
 "C205": "The comparison of texts (localeCompare) is a parameter: an order in which the first characters with different places in the alphabet decide.",
 "C206": "Missing: texts which contain quotes, and the empty text in double quotes (false there, see the witness).",
 "C207": "Missing: pages with double quotes in their ids, pagers without a name, and what is offered directly after a new name of a pager (false there, see the witnesses).",
 "C209": "Missing: variables which are not used in the inputs under their own name (false there, see the witness).",
 "C210": "Missing: histories in which another device tells the number of the rig (false there, see the witness). The input is modelled as a number from 0 on.",
 "C211": "Missing: typed tempos above 256 BPM while the parameter already tells the greatest tempo (false there, see the witness). Numbers typed are from 0 on, fractions are exact.",
 "C212": "Missing: rows written before a click on the button for hexadecimal numbers, and the hint after a start with the button (false there, see the witnesses).",
 "C213": "The names of the inputs are different; a message for an input which does not exist is an exception (`C213_unknown`).",
 "C214": "Heights are shown correctly for families without digits; false otherwise (`C214_family_witness`, `C214_nan_witness`).",
 "C25": "The trigger part is proved in full; informing every component that asked is proved for the first one only, and is false for the others (C25_second_listener_lost) and if the trigger does not answer (C25_termination_lost).",
 "C26": "Never polled: in full. Updates: if no one-shot request is pending at registration; otherwise false (C26_late_registration_lost).",
 "C29": "Keep-alive and loss detection in full; the report to the listeners is proved for the next init beacon; it is missing if the connection comes back before (C29_quick_reconnect).",
 "C35": "Holds for every value differing from the previously known one, after resets, and as long as the user does not push (C35_changed_partial, C35_reset, C35_device_only). A repeated equal value is not evaluated again, so a refused switching stays displayed as on: C35_stale.",
 "C36": "For the comparison modes proper (NO_STATE_CHANGE compares nothing). Nothing is sent if no off value has been received yet.",
 "C37": "Floats are modelled as rationals.",
 "C38": "Monotone and zero at the lowest input in all configurations; the maximum is reached by calibration if the step width divides 65536 (C38_calibrated_partial). With 100 steps and an NRPN parameter it is missed: C38_max_missed.",
 "C40": "Proved for direct mode from a known value while the device does not change it (C40_direct_partial), and for each turn of a running preselection (C40_preselect). False after a device change (C40_step_lost), when leaving position -1 (C40_position_lost) and for the first preselection (C40_preselect_start).",
 "C42": "In full for labels whose normal text comes from a callback; a label without one keeps the preview text (C42_no_callback).",
 "C44": "In full when no bank is preselected. With a pending preselection, rig up/down within the bank loads a rig of the preselected bank: C44_preselection_pending.",
 "C45": "For every positive number of banks; with max_bank = 0 the wrapping loop never ends (C45_no_banks).",
 "C48": "Type 137 (DualChrom) has a name but is categorised as empty: C48_dual_chrom. Type 91 (flanger, one way) has no name of its own: C48_flanger_witness.",
 "C49": "Proved for page ids that are set, not zero and known (C49_valid_partial, C49_direct_partial). The code fails otherwise: C49_zero_id (an id of 0 is taken for none), C49_unknown_id, C49_mappings_raise (get_mappings of a page raises).",
 "C52": "Range and single press in full. The repetition stops at release only if the release reaches the action (C52_repeat_partial); when the action is disabled in between it goes on (C52_runaway).",
 "C54": "C54_children_argument: containers created with their children are not laid out until something is added or the layout is updated by hand (the claim is about additions and updates).",
 "C55": "C55_shown_partial: as long as nothing is added to a tree while it is shown. C55_late_child: an element added to the shown tree stays uninitialised even if the tree is shown again. C55_container_again: elements with children can be initialised again after additions below.",
 "C56": "Marker position, order, middle and note names are proved for all values. The marker can leave a display area not starting at x = 0 by one pixel (C56_outside, because the zoom is computed from 8191 and applied to 8192), and the exact pitch as the first value after start or reset is not shown as in tune (C56_exact_first).",
 "C57": "Termination for every positive speed (and non-termination for zero), range, highlight and standstill are proved. Display of the pattern is partial: the LED cache of the strobe is not invalidated when the callback switches the LEDs off on the next engagement (C57_stale).",
 "C59": "Proved for clocks which do not go back and have left zero; C59_zero_start shows that a measurement started at clock reading 0 is lost. C59_report holds without any assumption on the clock.",
 "C61": "Exact for the rational value/16383; float rounding of the quotient is not modelled.",
 "C62": "Partial: a hold pending when the tuner is engaged still fires (C62_hold_fires), a press in tuner mode whose release happens outside makes the next engagement end at once (C62_stale_press), and with overridden actions processed the second of two simultaneous releases is lost (C62_second_release_lost).",
 "C63": "Holds for single values and for lists without auto (C63_enable, C63_fixed_partial, C36_single, C36_list). With a list containing an unresolved auto entry, switching on sends nothing: C63_enable_blocked.",
 "C65": "Holds without calibration; with calibration the input reaches 65536 (C65_input_partial, C65_out_of_range).",
 "C67": "Proved for ordinary parameters once the first value has arrived. False before (C67_cancel_first, C67_bank_first).",
 "C68": "Proved for previews ended by a reset (as encoders do). A preview ended by its timeout while the blinking color is shown keeps it: C68_blink_left.",
 "C70": "Proved if the previous rig differs in slot (and in bank, if a bank is configured); otherwise false: C70_same_slot, C70_same_bank.",
 "C72": "Proved for the event which empties the slot and for changed values. False in general: an on/off value after the type shows an empty slot as on (C72_on_again), and an effect loaded with unchanged on/off value is shown as off (C72_stale_off).",
 "C73": "Proved for selectors enabled at the time of the push (C73_shows_partial); C73_stale shows a selector enabled later with the LEDs of the old page.",
 "C77": "C77_value characterises every device value in every history; partial because a value the device merely repeats after a press is not taken over (C77_stuck), the first new value after enabling is dropped by design (C77_ignored), and other displays follow only with their next own event (C77_other_late).",
 "C79": "proved for histories in which a change of the page takes effect (update) before the next press; C79_early_press, C79_reset and C79_disabled_label prove that the code violates the full statement: a press before that update, a reset (tuner, paging) and a rig change while disabled",
 "C80": "the text is proved at each refresh; C80_stale and C80_missed prove that the label is not refreshed when a preselection is removed, nor when it is removed and made again between two updates",
 "C82": "C82_missed and C82_page prove that the code violates the full statement: a change of the tempo after a rig change without tempo change is not shown, and the text is not restored when the page is shown again",
 "C83": "Proved for every history for rig select, bank select and (without preselecting actions) rig up/down, for labels and colors. Missing: false for off bank without off rig (C83_off_bank_only), with BANK_UP/DOWN preselection (C83_bank_up_stale) and RIG_UP/DOWN during a preselection (C83_rig_down_preselected).",
 "C84": "For every history of the actions of C83, while the device has no preselected bank.",
 "C85": "For every state of all actions, after a report of the device.",
 "C86": "LEDs of hidden actions never change, labels only by an update of their own during a preselection, which does occur (C86_hidden_label). Updates without preselection change nothing. Blink phase of rig select switches.",
 "C87": "Resets while the switch is held are outside the claim; C87_stuck proves that they matter: a page change, or the first periodic update after the start, while a looper or tap switch is held leaves the function switched on (the off message is never sent).",
 "C88": "The restrictions are needed: C88_front_panel (parameter changed back at the device before the next answer) and C88_auto (value to restore not known) leave the LEDs wrong for ever.",
 "C89": "The restriction is needed: C89_crossing (messages of both directions crossing) leaves the LEDs wrong for ever.",
 "C90": "C90_messages: bytes on the wire over any history; C90_received: as read back by the parser; C90_programs: the table; C90_led, C90_leds: LEDs; C90_three_leds: with three LEDs they do not tell the next program (period 3 against 2).",
 "C91": "C91_stream (whole buffer, with SysEx), C91_known (the known messages are undisturbed), C91_split (every split into reads, without SysEx, foreign messages of at most two data bytes). SysEx with split reads is the subject of C06.",
 "C92": "Proved for real-time bytes between messages (C92_between_partial). The code violates the rest: a clock byte inside a Control Change (C92_inside_control_change) or a SysEx message (C92_inside_sysex) destroys it, and running status is not understood (C92_running_status, for all channels, values and data).",
 "C93": "Proved for channel messages and unknown messages of at most two data bytes (C93_goes_on_partial). In general the code violates it, for every buffer size: data bytes filling the buffer up to a Control Change status byte at its end block the input for ever (C93_stuck), which is reachable from an empty buffer (C93_lost).",
 "C94": "C94_thru: composition of the parser (C91), routing (C08) and serialiser (C04); C94_transparent: byte by byte if on the channel of the target; C94_channel: the channel is not preserved. All bytes are in the input buffer from the beginning; arrival in portions is covered by C91 and C08 separately.",
 "C95": "C95_accept_partial, C95_cancel_partial: for buttons with one purpose; C95_mixed: negation for mixed use; C95_never_both for all configurations.",
 "C96": "Composition of the models of the encoder, its buttons, the switch and the preview label. For histories without exception (see C98_crash, C67) and without an override action on the switch; minimum of the range at least 0.",
 "C97": "C97_volume_partial: the sign of numbers shown as zero is not determined (C97_volume_zero is the witness). Floats are rational numbers.",
 "C98": "C98_start_partial: after an accepted or cancelled preview with the parameter unchanged since. Negations: C98_first, C98_stale, C98_rig, C98_crash.",
 "C99": "Device tables, number of LEDs, set-up and all LED setters; LED colours are exact rationals times integers (the code stores brightnesses as 32 bit floats)."
}
