{"id": "C01", "title": "Period counter fires exactly when its interval has elapsed", "statement": "Polling a period counter returns True exactly when more than `interval` milliseconds have passed since the last reset or the last positive poll (initially clock 0). Hence two positive polls are always strictly more than `interval` ms apart, and a counter polled more than `interval` ms after its last firing always fires.", "quantifier": "every interval, every (non-decreasing) sequence of clock readings, every interleaving of polls and resets", "why_tests_cant": "the claim is about every schedule of polls and clock values; a test fixes a handful of clock readings", "anchors": ["content/lib/pyswitch/misc.py PeriodCounter"]}
{"id": "C02", "title": "Updateables are updated once each, in registration order", "statement": "After any history of add_updateable calls, one update() call invokes update on every added object that is an Updateable exactly once, in order of first registration, and on nothing else; same for reset().", "quantifier": "every history of add_updateable calls, with arbitrary duplicates and non-updateables", "why_tests_cant": "needs all histories of registrations, including arbitrary duplicates", "anchors": ["content/lib/pyswitch/misc.py Updater"]}
{"id": "C03", "title": "Listeners are registered at most once and add_listener reports it", "statement": "add_listener returns True iff the listener was not registered before, and after any history every distinct listener occurs exactly once, in order of its first registration.", "quantifier": "every history of add_listener calls", "why_tests_cant": "needs all histories", "anchors": ["content/lib/pyswitch/misc.py EventEmitter.add_listener"]}
{"id": "C04", "title": "MIDI messages survive the wire byte for byte", "statement": "For every valid Control Change, Program Change (any channel) and every System Exclusive message (7-bit manufacturer id of length 1 or 3 in canonical form and 7-bit data), parsing the bytes produced by serialising the message returns that message and consumes exactly its bytes, whatever follows in the buffer.", "quantifier": "all controls, values, patches, channels, all SysEx payloads of any length, any trailing bytes", "why_tests_cant": "unbounded payload space", "anchors": ["web/htdocs/python/adafruit_midi/midi_message.py MIDIMessage.from_message_bytes", "web/htdocs/python/adafruit_midi/system_exclusive.py", "web/htdocs/python/adafruit_midi/control_change.py", "web/htdocs/python/adafruit_midi/program_change.py"]}
{"id": "C05", "title": "A stream of MIDI messages is parsed without loss, duplication or reordering", "statement": "If the input buffer holds the concatenated bytes of a list of valid messages, repeated receive() calls return exactly these messages, in order, dropping those whose channel is filtered out, and then None.", "quantifier": "every list of messages, every channel filter", "why_tests_cant": "unbounded message sequences", "anchors": ["web/htdocs/python/adafruit_midi/__init__.py MIDI.receive", "web/htdocs/python/adafruit_midi/midi_message.py MIDIMessage.from_message_bytes"]}
{"id": "C06", "title": "Splitting the byte stream into reads does not lose messages", "statement": "However the incoming byte stream of valid messages is split into chunks across receive() calls, all messages are eventually returned in order: an incomplete message is kept in the buffer until the remaining bytes arrive.", "quantifier": "every message list, every split of its bytes into chunks", "why_tests_cant": "all split points of all streams", "anchors": ["web/htdocs/python/adafruit_midi/__init__.py MIDI.receive", "web/htdocs/python/adafruit_midi/midi_message.py _search_eom_status / _match_message_status"]}
{"id": "C07", "title": "Application MIDI output reaches exactly the routed targets", "statement": "Every message sent by the application is delivered exactly once per routing whose source is the application, to that routing's target, in send order; no other device receives anything.", "quantifier": "every routing table and every sequence of sends", "why_tests_cant": "all routing tables and all histories", "anchors": ["content/lib/pyswitch/controller/midi.py MidiController.send"]}
{"id": "C08", "title": "Pass-through routings forward every known message once, in order", "statement": "For every device that is the source of pass-through routings, each poll of the controller takes at most one message from it and forwards it exactly once per pass-through routing of that device, in order; empty reads, unknown events and bad events are not forwarded, and no other target receives anything.", "quantifier": "every routing table, every content of the device queues, every number of polls", "why_tests_cant": "all routing tables and message histories", "anchors": ["content/lib/pyswitch/controller/midi.py MidiController.receive", "content/lib/pyswitch/controller/midi.py MidiController.__process_external_routings"]}
{"id": "C09", "title": "Messages routed to the application are neither lost nor reordered", "statement": "For sources that only route to the application, the messages returned by receive() restricted to one source are exactly that source's queue in order; a poll returns None only if none of the application sources has a message pending; a device that also has a pass-through routing has its messages split, not copied.", "quantifier": "every routing table, every queue content, every number of polls", "why_tests_cant": "all routing tables and message histories", "anchors": ["content/lib/pyswitch/controller/midi.py MidiController.receive"]}
{"id": "C10", "title": "Message bursts cannot starve the switches", "statement": "One receive cycle processes at most maxConsecutiveMidiMessages + 1 messages, and all inputs are scanned before each of them, so between two consecutive messages every input has been polled; a tick handles at most (number of updateables + 1) such cycles.", "quantifier": "every message backlog (even infinite), every configuration value, every set of inputs", "why_tests_cant": "unbounded backlog lengths", "anchors": ["content/lib/pyswitch/controller/controller.py Controller.tick", "content/lib/pyswitch/controller/controller.py Controller.__receive_midi_messages"]}
{"id": "C11", "title": "The receive buffer is drained at start-up", "statement": "With clearBuffers enabled, init() discards all pending incoming messages (one after another until a read is empty) before the loop starts; none of them reaches any listener. With it disabled nothing is discarded.", "quantifier": "every backlog of pending messages", "why_tests_cant": "unbounded backlog", "anchors": ["content/lib/pyswitch/controller/controller.py Controller.init"]}
{"id": "C12", "title": "Push and release strictly alternate, one pair per press", "statement": "For a switch without hold actions, over any sequence of hardware samples, each enabled action gets exactly one push at each press edge and one release at each release edge, in list order; nothing happens between edges.", "quantifier": "every sample sequence, every list of actions and every (changing) enabled status", "why_tests_cant": "all schedules of samples", "anchors": ["content/lib/pyswitch/controller/inputs.py SwitchController.process"]}
{"id": "C13", "title": "Short press and long press are mutually exclusive", "statement": "For a switch with hold actions (no repeat): a press released within the hold time triggers push+release of the normal actions once and no hold action; a press held longer triggers the hold actions once, as soon as it is polled after the hold time, and never the normal actions.", "quantifier": "every sequence of samples and clock readings", "why_tests_cant": "all schedules of polls", "anchors": ["content/lib/pyswitch/controller/inputs.py SwitchController.process", "content/lib/pyswitch/controller/inputs.py SwitchController.__check_hold"]}
{"id": "C14", "title": "Hold repeat fires periodically and then suppresses the normal actions", "statement": "With holdRepeat, while the switch stays pressed the hold actions fire repeatedly with more than the hold time between firings; releasing then triggers no normal action, and a new press starts from a clean state.", "quantifier": "every sequence of samples and clock readings", "why_tests_cant": "all schedules of polls", "anchors": ["content/lib/pyswitch/controller/inputs.py SwitchController"]}
{"id": "C15", "title": "An override action can suppress the switch's own actions", "statement": "While an override action is set which declines (returns a falsy value from push and release), no own action of the switch is triggered by push or release edges.", "quantifier": "every sample sequence while the override is installed", "why_tests_cant": "all schedules", "anchors": ["content/lib/pyswitch/controller/inputs.py SwitchController.process", "content/lib/pyswitch/clients/kemper/__init__.py TunerDisplayCallback"]}
{"id": "C16", "title": "14-bit parameter values survive the NRPN encoding", "statement": "For every value 0..16383 and every SysEx parameter template (six address bytes, possibly with value bytes behind them, all below 128), the message produced by setting the value, read back as a response for the same address, yields exactly that value; both value bytes are below 128.", "quantifier": "all 14-bit values and all addresses", "why_tests_cant": "the round trip must hold for every value and every address", "anchors": ["content/lib/pyswitch/controller/client.py ClientParameterMapping.__set_value", "content/lib/pyswitch/controller/client.py ClientParameterMapping.parse_against"]}
{"id": "C17", "title": "Responses are attributed to the right parameter only", "statement": "A SysEx message changes the value of a parameter iff the manufacturer equals and bytes 2..5 (function, instance, page, address) of message and response template are equal; CC messages match by control number, PC messages always match PC templates; messages of a different kind never match.", "quantifier": "every message and every response template", "why_tests_cant": "unbounded message space", "anchors": ["content/lib/pyswitch/controller/client.py ClientParameterMapping.parse_against"]}
{"id": "C18", "title": "Names are decoded completely", "statement": "For string parameters, the decoded value is the sequence of characters of all payload bytes after the address, without the terminating zero byte.", "quantifier": "every string of 7-bit characters of any length", "why_tests_cant": "unbounded strings", "anchors": ["content/lib/pyswitch/controller/client.py ClientParameterMapping.parse_against", "content/lib/pyswitch/clients/kemper/__init__.py KemperMappings.RIG_NAME"]}
{"id": "C19", "title": "The rig ID is assembled from its two messages", "statement": "Over any history of messages, the rig ID changes only when a program change arrives after a bank CC (since the last assembly), and it then equals 128 * (last bank CC value) + program number; no other message changes or completes it.", "quantifier": "every message history", "why_tests_cant": "all histories/interleavings", "anchors": ["content/lib/pyswitch/controller/client.py ClientTwoPartParameterMapping.parse"]}
{"id": "C20", "title": "Parameters are shared by name", "statement": "Asking for a parameter mapping of the same name always returns the same object, different names return different objects, and later definitions never alter an existing one.", "quantifier": "every sequence of get() calls", "why_tests_cant": "all histories", "anchors": ["content/lib/pyswitch/controller/client.py ClientParameterMapping.get"]}
{"id": "C21", "title": "Setting a parameter sends exactly its messages with that value", "statement": "client.set on a settable parameter sends all its set messages in order, carrying the given value(s), and nothing else; for a parameter without set message nothing is sent.", "quantifier": "every mapping and value", "why_tests_cant": "all mapping shapes and values", "anchors": ["content/lib/pyswitch/controller/client.py Client.set", "content/lib/pyswitch/controller/client.py ClientParameterMapping.set_value"]}
{"id": "C22", "title": "At most one open request per parameter", "statement": "Over any history of register, request and receive calls there is at most one pending entry per parameter; a further request while one is pending adds the listener (once) and sends no MIDI, a new request sends the request message exactly once.", "quantifier": "every history of register/request/receive calls", "why_tests_cant": "all histories", "anchors": ["content/lib/pyswitch/controller/client.py Client._register_mapping", "content/lib/pyswitch/controller/client.py Client.request"]}
{"id": "C23", "title": "Every waiting listener is notified once per answer", "statement": "When a matching response arrives, every listener of the parameter is called exactly once in registration order; one-shot requests are then closed, permanent registrations stay.", "quantifier": "every client state and every response", "why_tests_cant": "all histories", "anchors": ["content/lib/pyswitch/controller/client.py ClientRequest.parse", "content/lib/pyswitch/controller/client.py Client.receive"]}
{"id": "C24", "title": "Unanswered requests are terminated, registrations never", "statement": "A one-shot request which is not answered is never terminated before its lifetime has passed and is terminated (value reset to None, all listeners informed) at the latest by the first poll later than 1.5 times the lifetime (plus poll granularity); a permanent registration is never terminated by time.", "quantifier": "every schedule of polls and clock readings", "why_tests_cant": "all schedules", "anchors": ["content/lib/pyswitch/controller/client.py Client.receive", "content/lib/pyswitch/controller/client.py ClientRequest"]}
{"id": "C25", "title": "Dependent parameters are requested only when their trigger changes", "statement": "A parameter that depends on another is requested exactly when the other's value changes, and every component that asked for it is informed of the result.", "quantifier": "every sequence of trigger values and of requesters", "why_tests_cant": "all histories", "anchors": ["content/lib/pyswitch/controller/client.py Client._DependencyListener", "content/lib/pyswitch/controller/client.py Client.request"]}
{"id": "C26", "title": "Bidirectional parameters are never polled", "statement": "When a bidirectional protocol handles a parameter, no request message is ever sent for it after registration, and all its updates still reach the listeners.", "quantifier": "every history of register/request/receive", "why_tests_cant": "all histories", "anchors": ["content/lib/pyswitch/controller/client.py BidirectionalClient.register", "content/lib/pyswitch/controller/client.py BidirectionalClient.receive"]}
{"id": "C27", "title": "Local feedback of set values", "statement": "In bidirectional mode, setting a parameter that is fed back locally makes the set value visible to all registered listeners immediately and exactly once; without registration the call fails with an exception after sending.", "quantifier": "every client state and value", "why_tests_cant": "all histories", "anchors": ["content/lib/pyswitch/controller/client.py BidirectionalClient.set"]}
{"id": "C28", "title": "Connection handshake of the Kemper protocol", "statement": "Offline, the initialisation beacon is sent at most once per 5 s and again whenever 5 s have passed; the state becomes connected only on a valid sensing message after a beacon was sent.", "quantifier": "every schedule of updates, messages and clock readings", "why_tests_cant": "all schedules", "anchors": ["content/lib/pyswitch/clients/kemper/__init__.py KemperBidirectionalProtocol.update", "content/lib/pyswitch/clients/kemper/__init__.py KemperBidirectionalProtocol.receive"]}
{"id": "C29", "title": "Keep-alive and connection-loss detection", "statement": "While connected, keep-alive beacons are sent with more than half the time lease between them and an update later than half the lease after the last beacon sends one; the connection is declared lost only if no sensing message arrived for 1.5 s, and is declared lost by the first update after that; a lost connection reports termination to the bidirectional listeners.", "quantifier": "every schedule", "why_tests_cant": "all schedules of updates and messages", "anchors": ["content/lib/pyswitch/clients/kemper/__init__.py KemperBidirectionalProtocol.update"]}
{"id": "C30", "title": "Beacon flags are encoded faithfully", "statement": "The beacon carries the flag byte whose bits 0..5 are init, sysex, echo, nofe, noctr and tunemode as configured and the time lease as half seconds; different configurations give different bytes, all 7-bit.", "quantifier": "all flag combinations and leases", "why_tests_cant": "full domain", "anchors": ["content/lib/pyswitch/clients/kemper/__init__.py KemperBidirectionalProtocol.__send_beacon"]}
{"id": "C31", "title": "Push button modes", "statement": "Over any sequence of press/release and feedback events: LATCH toggles at each press; MOMENTARY is on exactly while pressed; MOMENTARY_INVERSE is off exactly while pressed; ENABLE/DISABLE end on/off; ONE_SHOT triggers on at each press and silently returns off at release; NO_STATE_CHANGE keeps the state; HOLD_MOMENTARY toggles at press, and again at release iff it was held longer than the hold time.", "quantifier": "every event history and clock", "why_tests_cant": "all histories", "anchors": ["content/lib/pyswitch/controller/actions/__init__.py PushButtonAction"]}
{"id": "C32", "title": "State feedback never sends", "statement": "Feeding back a state from the device or resetting an action changes the state without notifying the device; the device is notified of user changes exactly when the state really changes.", "quantifier": "every event history", "why_tests_cant": "all histories", "anchors": ["content/lib/pyswitch/controller/actions/__init__.py PushButtonAction.state / feedback_state / reset"]}
{"id": "C33", "title": "Actions of a switch share its LEDs without overlap", "statement": "The LED segments of the enabled LED-using actions of one switch are pairwise disjoint, lie within the switch's LEDs and, if there are not more actions than LEDs, cover all of them.", "quantifier": "all numbers of LEDs and of actions, all enabled patterns", "why_tests_cant": "unbounded sizes", "anchors": ["content/lib/pyswitch/controller/actions/__init__.py Action.__get_led_segments"]}
{"id": "C34", "title": "LED output stays in range and hits only the own pixels", "statement": "Setting colors/brightnesses of a switch writes only the pixels of that switch, and each written channel is the floor of color times brightness, within 0..255 for colors 0..255 and brightness 0..1; a wrong number of values raises instead of writing.", "quantifier": "all colors, brightnesses and pixel assignments", "why_tests_cant": "unbounded domain", "anchors": ["content/lib/pyswitch/controller/inputs.py SwitchController.colors / brightnesses", "content/lib/pyswitch/colors.py dim_color"]}
{"id": "C35", "title": "Switch state follows the device value", "statement": "The on/off state evaluated for a parameter is the documented comparison of the current value with the reference value; no value means off.", "quantifier": "all modes, values and references", "why_tests_cant": "unbounded domain", "anchors": ["content/lib/pyswitch/controller/callbacks/__init__.py BinaryParameterCallback.evaluate_value"]}
{"id": "C36", "title": "Auto-disable restores the last off value", "statement": "With value_disable = auto, switching off sends the last value received while the state was off.", "quantifier": "every history of received values and switchings", "why_tests_cant": "all histories", "anchors": ["content/lib/pyswitch/controller/callbacks/__init__.py BinaryParameterCallback"]}
{"id": "C37", "title": "Analog output stays in range and is sent only on change", "statement": "For any raw pedal readings the value sent is within 0..max (16383 NRPN, 127 CC), consecutive sent values differ, and sends are more than 1/fps apart.", "quantifier": "every sequence of readings, every schedule, every configuration", "why_tests_cant": "all histories", "anchors": ["content/lib/pyswitch/controller/actions/AnalogAction.py AnalogAction.process"]}
{"id": "C38", "title": "Analog mapping is monotone", "statement": "A higher pedal reading never yields a lower output value, the lowest reading gives 0, and auto-calibration maps the largest reading seen to the maximum.", "quantifier": "all raw values and numbers of steps", "why_tests_cant": "unbounded domain", "anchors": ["content/lib/pyswitch/controller/actions/AnalogAction.py AnalogAction.process"]}
{"id": "C39", "title": "Encoder values stay in range and are sent only on change", "statement": "Values sent by turning an encoder are within [min,max]; nothing is sent without a position change.", "quantifier": "every sequence of positions and device values", "why_tests_cant": "all histories", "anchors": ["content/lib/pyswitch/controller/actions/EncoderAction.py EncoderAction.process"]}
{"id": "C40", "title": "Encoder adds exactly the turned amount", "statement": "Each position change by d steps changes the adjusted value by d times the step width, clamped.", "quantifier": "every sequence of positions", "why_tests_cant": "all histories", "anchors": ["content/lib/pyswitch/controller/actions/EncoderAction.py EncoderAction.process"]}
{"id": "C41", "title": "Preselected encoder values are sent only on accept", "statement": "With an accept action, turning never sends; accepting sends the adjusted value exactly once; cancel sends nothing and discards the adjustment.", "quantifier": "every history of turn/accept/cancel", "why_tests_cant": "all histories", "anchors": ["content/lib/pyswitch/controller/actions/EncoderAction.py EncoderAction.accept / cancel"]}
{"id": "C42", "title": "Value preview returns to normal", "statement": "A preview text overrides the label until its timeout has passed (or as long as stay is set), afterwards the normal text returns; a newer preview client takes over and the older one is cancelled.", "quantifier": "every schedule of previews and updates", "why_tests_cant": "all schedules", "anchors": ["content/lib/pyswitch/controller/preview.py ValuePreview"]}
{"id": "C43", "title": "Rig up/down stay valid and are inverse", "statement": "From any rig ID in range, rig up/down yields a rig ID in range; without keep_bank, down undoes up and repeatedly pressing up cycles through all 625 rigs; with keep_bank the bank never changes and the ends are sticky (nothing is sent).", "quantifier": "all rig IDs, directions, press counts", "why_tests_cant": "iteration over arbitrary press counts", "anchors": ["content/lib/pyswitch/clients/kemper/actions/rig_up_down.py _KemperRigChangeCallback"]}
{"id": "C44", "title": "Rig up/down send consistent select messages", "statement": "Each effective push sends a bank preselect iff the bank changes, then rig select 1 for the target slot; release sends the matching 0 exactly once; applied to the device this selects exactly the announced rig.", "quantifier": "every history of push/release and rig IDs", "why_tests_cant": "all histories", "anchors": ["content/lib/pyswitch/clients/kemper/actions/rig_up_down.py _KemperRigChangeCallback.push / release"]}
{"id": "C45", "title": "Bank preselect wraps within the available banks", "statement": "Preselecting the next/previous bank always yields a bank in [0, number of banks), congruent to the current bank plus/minus one.", "quantifier": "all banks and bank counts", "why_tests_cant": "unbounded bank counts and press counts", "anchors": ["content/lib/pyswitch/clients/kemper/actions/bank_up_down.py KemperBankChangeCallback.__get_next_bank"]}
{"id": "C46", "title": "Rig select selects the configured rig and toggles", "statement": "Pressing a rig select button leads the device to the configured rig (and bank), or to the off rig if it is already current; every press value sent is followed by its release value.", "quantifier": "every current rig, configuration and history", "why_tests_cant": "all histories", "anchors": ["content/lib/pyswitch/clients/kemper/actions/rig_select.py _KemperRigSelectCallback"]}
{"id": "C47", "title": "Bank select keeps the rig", "statement": "Pressing a bank select button leads the device to the same rig slot in the configured bank (or in the off bank if already there); in preselect mode no rig is selected.", "quantifier": "every current rig and configuration", "why_tests_cant": "all histories", "anchors": ["content/lib/pyswitch/clients/kemper/actions/bank_select.py KemperBankSelectCallback"]}
{"id": "C48", "title": "Effect categories are total and consistent", "statement": "Every effect type number has exactly one category, which has a color and a name; every effect with an extended name is not categorised as empty.", "quantifier": "all integers", "why_tests_cant": "full domain", "anchors": ["content/lib/pyswitch/clients/kemper/actions/effect_state.py KemperEffectEnableCallback.get_effect_category", "content/lib/pyswitch/clients/kemper/actions/effect_state_extended_names.py"]}
{"id": "C49", "title": "The pager always shows an existing page and rotates through all", "statement": "The current page is always one of the configured pages; n pushes of a rotating pager visit all n pages and return; direct selection selects the addressed page.", "quantifier": "every number of pages and press history", "why_tests_cant": "all histories", "anchors": ["content/lib/pyswitch/clients/local/actions/pager.py PagerAction"]}
{"id": "C50", "title": "Exactly the current page's actions are enabled", "statement": "An action guarded by a pager is enabled iff its id is the id of the current page, so actions of different pages are never enabled together.", "quantifier": "all states and ids", "why_tests_cant": "all histories", "anchors": ["content/lib/pyswitch/clients/local/actions/pager.py PagerAction.enable_callback"]}
{"id": "C51", "title": "Rotating messages cycle", "statement": "The k-th press of a rotating action sends message number k modulo the number of messages.", "quantifier": "all message lists and press counts", "why_tests_cant": "all histories", "anchors": ["content/lib/pyswitch/clients/local/actions/rotate.py _CustomMessagesCallback"]}
{"id": "C52", "title": "Parameter up/down stays in range", "statement": "Parameter up/down never sends a value outside [0, max], and repeats while pressed only at the repeat interval.", "quantifier": "all offsets, values and schedules", "why_tests_cant": "all histories", "anchors": ["content/lib/pyswitch/clients/local/actions/param_change.py"]}
{"id": "C53", "title": "Splitting display areas tiles them", "statement": "Removing a strip from an area and keeping the rest partitions the area: the parts are disjoint and together cover it; any sequence of removals keeps this.", "quantifier": "all areas, amounts and sequences", "why_tests_cant": "unbounded sizes and sequences", "anchors": ["content/lib/pyswitch/ui/layout.py"]}
{"id": "C54", "title": "Split containers lay out children without overlap", "statement": "Children of a split container are pairwise disjoint, in order, inside the container, equally sized and leave less than one pixel per child unused; nested containers too, after any sequence of additions anywhere in the tree.", "quantifier": "all sizes, child counts and nestings", "why_tests_cant": "unbounded sizes and depth", "anchors": ["content/lib/pyswitch/ui/DisplaySplitContainer.py DisplaySplitContainer.update_bounds"]}
{"id": "C55", "title": "Display trees are initialised once, shown and updated completely", "statement": "Initialising a display tree initialises every element; of a new tree every element exactly once. Whatever trees are shown and extended, an element without children is never initialised twice. The tree asked for last is the one on the display, with all its elements initialised, and exactly those of its elements which need updates are updated; the flat list of a tree contains every element as often as it occurs.", "quantifier": "all trees, all histories of showing trees and adding elements", "why_tests_cant": "unbounded depth and all histories", "anchors": ["content/lib/pyswitch/ui/ui.py: DisplayElement", "content/lib/pyswitch/ui/UiController.py: UiController.show"]}
{"id": "C56", "title": "Tuner display stays inside its area", "statement": "For each deviance value the marker lies completely within the display bounds, in-tune is shown iff the value is within the calibration limits, and each note value has a name.", "quantifier": "all deviance and note values, widths", "why_tests_cant": "unbounded domain", "anchors": ["content/lib/pyswitch/ui/elements.py TunerDisplay"]}
{"id": "C57", "title": "Strobe tuner brightness is always valid", "statement": "For all deviances and time steps the strobe computation terminates and each switch's brightness is within [0,1] (before dimming).", "quantifier": "all deviances, schedules, widths, switch counts", "why_tests_cant": "all histories", "anchors": ["content/lib/pyswitch/controller/strobe.py StrobeController"]}
{"id": "C58", "title": "Explore mode always lights a valid switch", "statement": "In explore mode, each press lights exactly one existing switch and stepping through all switches cycles.", "quantifier": "every number of switches and press history", "why_tests_cant": "all histories", "anchors": ["content/lib/pyswitch/controller/explore.py ExploreModeController.show_next_switch"]}
{"id": "C59", "title": "Runtime statistics are consistent", "statement": "For any sequence of measurements the average lies between the minimum and maximum measured time, and measurements are reset after each report, reported at most once per interval.", "quantifier": "every sequence of start/finish/update calls", "why_tests_cant": "all histories", "anchors": ["content/lib/pyswitch/controller/measure.py RuntimeMeasurement"]}
{"id": "C60", "title": "Padding keeps the text", "statement": "Filling up a text keeps it as a prefix, appends only fill characters and reaches exactly the maximum of the text length and the requested length.", "quantifier": "all strings and lengths", "why_tests_cant": "unbounded strings", "anchors": ["content/lib/pyswitch/misc.py fill_up_to"]}
{"id": "C61", "title": "Morph color is a valid blend", "statement": "For every morph value the displayed color is channelwise between the two end colors and equals them at the ends.", "quantifier": "all values and colors", "why_tests_cant": "full domain", "anchors": ["content/lib/pyswitch/clients/kemper/actions/morph.py"]}
{"id": "C62", "title": "Tuner mode takes over all switches", "statement": "When the tuner is switched on, every switch is overridden so that pressing it leaves the tuner instead of triggering its own actions, and when it is off all switches work normally again.", "quantifier": "every history of tuner values and presses", "why_tests_cant": "all histories", "anchors": ["content/lib/pyswitch/clients/kemper/__init__.py TunerDisplayCallback"]}
{"id": "C63", "title": "Every switching by the user is sent", "statement": "Each time the user changes the state of an on/off parameter, exactly one value is sent: the enable value when switching on, the disable value when switching off (nothing when switching off if the disable value is still to be learned).", "quantifier": "every configuration and history", "why_tests_cant": "The set of configurations (single/list/auto values) and histories is unbounded.", "anchors": ["content/lib/pyswitch/controller/callbacks/__init__.py: BinaryParameterCallback.state_changed_by_user"]}
{"id": "C64", "title": "LEDs and label always show the current state", "statement": "After every event, the LEDs, the label color and the label text of an on/off parameter are those of the current state and value, although they are only written when something changed; after a reset or re-enabling everything is written again.", "quantifier": "every history of values, switchings, resets and enablings", "why_tests_cant": "The display caching depends on the whole history.", "anchors": ["content/lib/pyswitch/controller/callbacks/__init__.py: BinaryParameterCallback.update_displays"]}
{"id": "C65", "title": "Transfer functions get values in the documented range", "statement": "The function passed as transfer_function is only called with values in the documented range 0..65535.", "quantifier": "every sequence of 16 bit readings and every configuration", "why_tests_cant": "The calibrated input depends on all readings so far.", "anchors": ["content/lib/pyswitch/controller/actions/AnalogAction.py: AnalogAction.process"]}
{"id": "C66", "title": "Reading an analog input never raises", "statement": "With a positive frame rate, a non-negative maximum, 1..65536 steps and a non-empty calibration window, no sequence of readings raises an exception.", "quantifier": "every configuration of this kind, every sequence of readings and times", "why_tests_cant": "Exceptions (division by zero, missing attribute) depend on the history of readings.", "anchors": ["content/lib/pyswitch/controller/actions/AnalogAction.py: AnalogAction.process"]}
{"id": "C67", "title": "Using an encoder never raises", "statement": "No sequence of turning, accepting, cancelling and device values raises an exception.", "quantifier": "every history", "why_tests_cant": "Depends on the order of events, e.g. cancelling before the first value.", "anchors": ["content/lib/pyswitch/controller/actions/EncoderAction.py: EncoderAction.process, cancel", "content/lib/pyswitch/clients/kemper/actions/bank_select_encoder.py"]}
{"id": "C68", "title": "A label gets its text color back after a blinking preview", "statement": "When a preview has ended (by its timeout or by a reset), the label has its original text color again.", "quantifier": "every schedule of previews, resets and updates", "why_tests_cant": "Depends on the phase of the blinking at the time the preview ends.", "anchors": ["content/lib/pyswitch/controller/preview.py: ValuePreview.update, reset"]}
{"id": "C69", "title": "Parameter previews show a percentage", "statement": "For every value between 0 and the maximum value of a parameter, the preview shows the name of the parameter and a whole percentage between 0 and 100; 0 shows 0% and the maximum value 100%.", "quantifier": "every maximum value and every value in the range", "why_tests_cant": "The domain of values and maxima is unbounded.", "anchors": ["content/lib/pyswitch/controller/preview.py: ValuePreview.preview_mapping"]}
{"id": "C70", "title": "Automatic off rig leads back to where you came from", "statement": "With automatic off rig (and off bank, if a bank is configured), pressing a rig select button twice leads the device back to the rig it was in before.", "quantifier": "every current rig and configuration", "why_tests_cant": "Depends on the combination of the configured rig with each of the 625 rigs and on the history.", "anchors": ["content/lib/pyswitch/clients/kemper/actions/rig_select.py: _KemperRigSelectCallback.update_displays, push"]}
{"id": "C71", "title": "Effect slot displays follow the loaded effect", "statement": "After every event, the label of an effect slot shows the text of the current effect type (if it is known) and the LEDs show the color of its category, bright exactly if the effect is switched on; although both are only written on changes.", "quantifier": "every history of on/off values, effect types, switching, resets and page changes, and every configuration", "why_tests_cant": "The displays are written only on changes, so correctness depends on the whole history of events.", "anchors": ["content/lib/pyswitch/controller/callbacks/effect_enable.py: EffectEnableCallback.update_displays, reset", "content/lib/pyswitch/clients/kemper/actions/effect_state.py: KemperEffectEnableCallback"]}
{"id": "C72", "title": "Effect slots show their real state, empty ones are off", "statement": "An empty effect slot is always shown as switched off, and a loaded one is shown as switched on exactly if the device's on/off value says so.", "quantifier": "every order in which on/off values and effect types arrive", "why_tests_cant": "Two values arrive independently and in any order; the result must not depend on the order.", "anchors": ["content/lib/pyswitch/controller/callbacks/effect_enable.py: EffectEnableCallback.update_displays"]}
{"id": "C73", "title": "Pager displays show the current page", "statement": "After every push of a pager action while it is enabled, its label shows the text of the page which is current, and every enabled page selector is lit exactly when its page is the current one; disabled selectors keep their previous LEDs until they are redrawn.", "quantifier": "every list of pages, every assignment of selectors and their enabled states, every sequence of pushes and updates", "why_tests_cant": "The displays are redrawn only on certain events and depend on the enabled state of each selector at that time; tests check single histories.", "anchors": ["content/lib/pyswitch/clients/local/actions/pager.py: PagerAction.push, PagerAction.update_displays, PagerAction.enable_callback", "content/lib/pyswitch/controller/actions/__init__.py: Action.update, Action.update_displays"]}
{"id": "C74", "title": "Parameter up/down displays are valid and follow the value", "statement": "For every value of the parameter in its range, a parameter up/down action shows a percentage between 0 and 100 and a brightness between off and full, exact at both ends of the range, and a question mark while no value is known. Once the periodic update has seen the action become enabled, what is shown is always the current value while it stays enabled, although displays are only redrawn on changes; while the action is disabled nothing is drawn.", "quantifier": "every maximum, offset, value; every history of value changes, enable changes, resets and updates", "why_tests_cant": "The value range has 16384 values and displays are cached; staleness needs a particular interleaving of value changes with enabling and disabling.", "anchors": ["content/lib/pyswitch/clients/local/actions/param_change.py: update_displays, reset", "content/lib/pyswitch/controller/actions/__init__.py: Action.update, Action.update_displays, Action._CallbackListener"]}
{"id": "C75", "title": "Labels show what has been set last", "statement": "After any sequence of changes of text, text color and background color, before and after its initialisation, a label shows exactly the text set last (wrapped to its width; replaced by a warning if memory is low), its current background color, and the text color chosen; if none is chosen (or the background changed since), an automatic color which is black or white with sufficient contrast to the background. Before initialisation nothing is drawn. The background never exceeds the area of the label.", "quantifier": "every label layout, every sequence of setter calls and the initialisation at any point, every color", "why_tests_cant": "Setters skip writes when nothing changed, and the same attributes are changed before and after the display objects exist; all interleavings cannot be tested.", "anchors": ["content/lib/pyswitch/ui/elements.py: DisplayLabel"]}
{"id": "C76", "title": "The protocol indicator follows the protocol state", "statement": "The indicator dot lies inside the area it is given (of at least 6 x 6 pixels), has the color of the protocol state after every update, and is redrawn exactly when that color has changed.", "quantifier": "every area, every sequence of protocol states", "why_tests_cant": "All histories and areas.", "anchors": ["content/lib/pyswitch/ui/elements.py: BidirectionalProtocolState"]}
{"id": "C77", "title": "Morph displays show one common morph state", "statement": "All displays of the morph state share one state: a press of the morph button toggles it between unmorphed and completely morphed, a new value reported by the device (other than the first after the display has been enabled or disabled) replaces it, and the display concerned shows the blend of its two colors for it.", "quantifier": "every number of displays, every interleaving of presses, device values, losses of the value, rig changes, enabling and resets", "why_tests_cant": "all interleavings of several displays sharing a state; unit tests use one callback and a few values", "anchors": ["content/lib/pyswitch/clients/kemper/actions/morph.py KemperMorphCallback", "content/lib/pyswitch/clients/kemper/actions/rig_select_and_morph_state.py KemperMorphDisplayEnableCallback"]}
{"id": "C78", "title": "The parameters of the device are told apart", "statement": "All parameters a configuration can use have different names and are set under different controllers or addresses, except those which mean the same in the device. Whatever value the device answers to the request of one of them, or reports unasked, is taken over by exactly the parameters meant.", "quantifier": "all pairs of predefined parameters (all slots, rigs and effect buttons), all values and texts", "why_tests_cant": "tests check single definitions against themselves; a collision of two addresses in the table only shows up for pairs", "anchors": ["content/lib/pyswitch/clients/kemper/__init__.py KemperMappings", "content/lib/pyswitch/clients/kemper/mappings", "content/lib/pyswitch/controller/client.py ClientParameterMapping.parse"]}
{"id": "C79", "title": "Effect buttons show what has been pressed", "statement": "An effect button (a function of the device which does not report its state) toggles with each press: it sends the value for on and off alternately, starting with on after each rig change, and its LEDs are bright exactly while the value sent last was the one for on. Only presses send something. It does not touch displays while it is disabled.", "quantifier": "all histories of presses, rig changes, page changes, resets and updates", "why_tests_cant": "the shown state depends on the whole history and on the order of page changes, updates and presses", "anchors": ["content/lib/pyswitch/clients/kemper/actions/effect_button.py EFFECT_BUTTON, _KemperEffectButtonCallback", "content/lib/pyswitch/controller/callbacks/__init__.py BinaryParameterCallback", "content/lib/pyswitch/controller/actions/__init__.py PushButtonAction"]}
{"id": "C80", "title": "The rig label shows name and number of the rig", "statement": "The label for the rig name always shows the name reported last (or a default text) and, depending on its configuration, the number of bank and/or rig reported last; while a bank is preselected it shows that bank. Different rigs have different numbers on the display.", "quantifier": "all histories of names, rig numbers, lost values, preselections and updates; all rig numbers", "why_tests_cant": "refreshing is driven by events, so stale texts only appear for particular orders of events", "anchors": ["content/lib/pyswitch/clients/kemper/__init__.py KemperRigNameCallback"]}
{"id": "C81", "title": "Parameter labels show the last value", "statement": "A label for a parameter shows the value reported last: converted if a conversion is given and applies to it, as it is otherwise, and the default text when the value gets lost. The tempo label shows the tempo rounded to the nearest whole number.", "quantifier": "all histories of values and losses, all conversions, all values", "why_tests_cant": "all values and all conversions", "anchors": ["content/lib/pyswitch/controller/callbacks/parameter_display.py ParameterDisplayCallback", "content/lib/pyswitch/clients/kemper/callbacks/tempo_bpm.py KemperTempoDisplayCallback", "content/lib/pyswitch/clients/kemper/mappings/tempo_bpm.py convert_bpm"]}
{"id": "C82", "title": "The tempo display follows the device", "statement": "The LEDs of a tempo display follow the pulses of the device, and its label always shows the current tempo; nothing is changed while the tuner is active or the display is disabled. Changes of the tempo are shown in the change display, except for the first value and for those caused by a change of the rig.", "quantifier": "all histories of pulses, tempo values, rig numbers, tuner states, page changes, resets and updates", "why_tests_cant": "what is drawn depends on values remembered from earlier events; stale displays only appear for particular orders", "anchors": ["content/lib/pyswitch/clients/kemper/actions/tempo.py SHOW_TEMPO, _KemperShowTempoCallback"]}
{"id": "C83", "title": "Rig and bank switches show where a press leads", "statement": "At any time, the label of a visible RIG_SELECT, BANK_SELECT or RIG_UP/RIG_DOWN switch in target mode (with default texts) names the rig or bank the device is in (or has preselected) after that switch is pressed, and label and LEDs have the color of that bank. The preselected bank known to the switches is the one of the device.", "quantifier": "all sets of such actions, with all rigs/banks (also off rigs and banks, fixed and automatic), all start rigs and all histories of presses, releases, device reports, page changes, resets and display updates", "why_tests_cant": "label and message are computed by different code from shared state of several actions, so agreement depends on the whole history of presses, preselections and page changes", "anchors": ["content/lib/pyswitch/clients/kemper/actions/rig_select.py: update_displays, push", "content/lib/pyswitch/clients/kemper/actions/bank_select.py: update_displays, push", "content/lib/pyswitch/clients/kemper/actions/rig_up_down.py: update_displays, push", "content/lib/pyswitch/clients/kemper/actions/bank_up_down.py"]}
{"id": "C84", "title": "Exactly the switches of the current rig are lit", "statement": "While no bank is preselected, the LEDs of a visible RIG_SELECT or BANK_SELECT switch in target mode are bright if and only if the device is in the rig (bank) of that switch, and its label is dimmed if and only if they are not; RIG_UP/RIG_DOWN are always bright.", "quantifier": "all sets of such actions, start rigs and histories", "why_tests_cant": "the displays are cached and redrawn selectively, so a stale state could survive only after particular histories", "anchors": ["content/lib/pyswitch/clients/kemper/actions/rig_select.py: state, update_displays", "content/lib/pyswitch/clients/kemper/actions/bank_select.py: update_displays"]}
{"id": "C85", "title": "BANK_UP/BANK_DOWN show the bank to be preselected", "statement": "After the device has reported its rig, a visible BANK_UP/BANK_DOWN switch in preselect and target mode has the color of the bank which is preselected when it is pressed, and its text callback gets that bank and the current slot.", "quantifier": "all offsets and numbers of banks, rigs, pending preselections and states of the other actions", "why_tests_cant": "wrap-around and pending preselections must agree between display and message for every bank and offset", "anchors": ["content/lib/pyswitch/clients/kemper/actions/bank_up_down.py: update_displays, __get_next_bank, push"]}
{"id": "C86", "title": "Hidden rig and bank switches do not disturb, blinking stops with the preselection", "statement": "Actions of other pages do not change LEDs or labels whatever happens; without a preselected bank the update tick changes nothing; while a bank is preselected the blink state changes with each blink period and the LEDs of rig select switches follow.", "quantifier": "all action sets, states and events", "why_tests_cant": "display code runs from presses, reports, resets, page changes and the periodic update of every action", "anchors": ["content/lib/pyswitch/clients/kemper/actions/rig_select.py: update", "content/lib/pyswitch/clients/kemper/actions/bank_select.py: update", "content/lib/pyswitch/clients/kemper/actions/bank_up_down.py: update", "content/lib/pyswitch/controller/actions/__init__.py: switch_lights, update_displays"]}
{"id": "C87", "title": "A foot switch writes exactly the messages of the documented press behaviour", "statement": "For a switch whose action sets a parameter the device does not report, by one message with fixed values for on and off (as all looper functions and the tap tempo do), the bytes written to the MIDI port are, for every history of readings of the switch, exactly the set messages with the on/off values which the mode of the button prescribes, in order, and nothing else; looper and tap tempo write on for each press and off for each release. Page changes and periodic updates while the switch is up change nothing.", "quantifier": "all histories of switch readings, all button modes, hold times, parameters and on/off values", "why_tests_cant": "the chain of debouncing, press modes, toggling, value conversion and encoding must agree for every history of presses", "anchors": ["content/lib/pyswitch/controller/inputs.py: SwitchController.process", "content/lib/pyswitch/controller/actions/__init__.py: PushButtonAction.push, release, state", "content/lib/pyswitch/controller/callbacks/__init__.py: BinaryParameterCallback.state_changed_by_user", "content/lib/pyswitch/controller/client.py: Client.set", "content/lib/pyswitch/clients/kemper/actions/looper.py", "content/lib/pyswitch/clients/kemper/actions/tempo.py: TAP_TEMPO"]}
{"id": "C88", "title": "LEDs agree with the device after the next answer (requested parameters)", "statement": "For an on/off parameter with fixed values for on and off which is requested from the device, whatever presses, releases, periodic updates, page changes, lost requests and answers happen in whatever order, if the parameter is not changed at the device itself, then after everything on its way has arrived and one more request has been answered, the LEDs are bright exactly if the parameter is on in the device.", "quantifier": "all histories of user events, updates, resets, time-outs and deliveries in both directions, all values and modes except ONE_SHOT", "why_tests_cant": "messages of both directions can be interleaved in unboundedly many ways", "anchors": ["content/lib/pyswitch/controller/callbacks/__init__.py: BinaryParameterCallback.update_displays, evaluate_value, state_changed_by_user", "content/lib/pyswitch/controller/actions/__init__.py: PushButtonAction", "content/lib/pyswitch/controller/client.py: Client.request, ClientRequest"]}
{"id": "C89", "title": "LEDs agree with the device when nothing is on its way (bidirectional parameters)", "statement": "For an on/off parameter with fixed values of a bidirectional protocol, whatever presses, changes at the device, page changes and deliveries happen, if no message is sent while one of the other direction is on its way, the LEDs are bright exactly if the parameter is on in the device as soon as nothing is on its way.", "quantifier": "all such histories, values and modes except ONE_SHOT", "why_tests_cant": "the known value, the state of the action and the device evolve separately through unboundedly many interleavings", "anchors": ["content/lib/pyswitch/controller/client.py: BidirectionalClient.set", "content/lib/pyswitch/controller/callbacks/__init__.py: BinaryParameterCallback", "content/lib/pyswitch/controller/actions/__init__.py: PushButtonAction"]}
{"id": "C90", "title": "A Boomerang switch alternates between its two program changes", "statement": "Over any history of presses, releases and display updates, a switch with one of the Boomerang functions puts exactly MIDI program changes on channel 16 on the wire (whatever the output channel of the port), alternating between the two programs of the function, starting with the first one and moving on at each release, with any number of LEDs. No exception occurs. The 24 programs of the twelve functions are all different. With one LED group the LED is bright exactly if the next press sends the first program; with n > 1 groups exactly group n-1-(k mod n) is bright after k releases.", "quantifier": "all twelve functions, all histories, all numbers of LEDs, all colors and texts", "why_tests_cant": "unbounded histories and LED counts", "anchors": ["content/lib/pyswitch/clients/boomerang/actions/boomerang.py _BOOMERANG_ACTION", "content/lib/pyswitch/clients/local/actions/rotate.py ROTATING_MESSAGES"]}
{"id": "C91", "title": "Unknown MIDI messages between known ones do not disturb them", "statement": "If the bytes arriving are those of any sequence of known messages (Control Change, Program Change, SysEx) and complete messages of other kinds (notes, pitch bend, clock, ...), receive() returns exactly the known messages on the listened channels, in order, with one unknown event in the place of each other message, and then nothing. Without SysEx messages this holds however the bytes are split into reads: what has been returned is always an initial part of these answers, and all of them after enough polls.", "quantifier": "every sequence of messages, every foreign status byte, every data, every channel filter, every split into reads", "why_tests_cant": "unbounded sequences and arrival patterns", "anchors": ["web/htdocs/python/adafruit_midi/midi_message.py MIDIMessage.from_message_bytes", "web/htdocs/python/adafruit_midi/__init__.py MIDI.receive"]}
{"id": "C92", "title": "Everything MIDI 1.0 allows in a stream is understood", "statement": "A Control Change, Program Change or SysEx message is received if real-time bytes (clock, start, stop, active sensing) occur anywhere in the stream, also inside of the message, and if the status byte is left out when it is the same as the one of the message before (running status).", "quantifier": "every stream of messages, every position of real-time bytes", "why_tests_cant": "unbounded streams and positions", "anchors": ["web/htdocs/python/adafruit_midi/midi_message.py MIDIMessage.from_message_bytes"]}
{"id": "C93", "title": "MIDI input never gets stuck", "statement": "Whatever bytes arrive, in whatever portions, a known message arriving later is returned after finitely many polls.", "quantifier": "every byte stream, every split into reads, every buffer size", "why_tests_cant": "unbounded histories", "anchors": ["web/htdocs/python/adafruit_midi/__init__.py MIDI.receive", "web/htdocs/python/adafruit_midi/midi_message.py MIDIMessage.from_message_bytes"]}
{"id": "C94", "title": "A pass-through routing copies the messages byte by byte, on the channel of the target", "statement": "If device t is the target of one pass-through routing, from a device s not routed to the application, and the bytes of any sequence of known and unknown messages have come in at s, the bytes written at t are exactly those of the known messages on the channels s listens to, in order, each on the output channel of t. In particular, input consisting only of SysEx messages and messages on that channel comes out byte by byte as it came in. The channel of a message is not preserved otherwise: messages differing only in the channel come out alike.", "quantifier": "all devices, routings, channels, all byte streams of messages", "why_tests_cant": "unbounded streams, composition of parser, routing and serialiser", "anchors": ["content/lib/pyswitch/controller/midi.py MidiController", "content/lib/pyswitch/hardware/adafruit/AdafruitDinMidiDevice.py", "content/lib/pyswitch/hardware/adafruit/AdafruitUsbMidiDevice.py", "web/htdocs/python/adafruit_midi/__init__.py MIDI.send"]}
{"id": "C95", "title": "An encoder button accepts or cancels exactly the encoders it is given to", "statement": "When an encoder button is pushed, it accepts the value of every encoder which has it as accept action and cancels every encoder which has it as cancel action, each once, and no others. (The code does this for buttons with one purpose only; a button used for both does only what the last encoder has asked for, with all of them.)", "quantifier": "all configurations of encoders and buttons", "why_tests_cant": "unbounded number of encoders and orders of construction", "anchors": ["content/lib/pyswitch/clients/local/actions/encoder_button.py", "content/lib/pyswitch/controller/actions/EncoderAction.py __init__"]}
{"id": "C96", "title": "With preselection, a short press of the button sends the displayed value, and nothing else does", "statement": "For an encoder with preview display whose accept button is the action and whose cancel button is the hold action of a switch: in every history of turning, pressing, incoming values, rig changes and other previews on the same display, a value is sent exactly when a press ends within the hold time while a value is previewed; it is this value, and the display shows it at that time. A press longer than the hold time sends nothing, ends the preview and brings back the normal text.", "quantifier": "all histories (all positions, times, values, texts), all ranges and step widths", "why_tests_cant": "unbounded interleavings of five components with timing", "anchors": ["content/inputs.py", "content/lib/pyswitch/controller/actions/EncoderAction.py", "content/lib/pyswitch/clients/local/actions/encoder_button.py", "content/lib/pyswitch/controller/inputs.py SwitchController.process", "content/lib/pyswitch/controller/preview.py"]}
{"id": "C97", "title": "Texts for values are correctly rounded and increase with the value", "statement": "Gain values 0..16383 are shown as 0.0 to 10.0, correctly rounded to one digit, never decreasing with the value. Transposition is shown in half steps with its sign (64 is 0). Tempo is shown as the nearest whole number of beats per minute. Volumes are shown in decibels with one digit and sign, strictly increasing with the position of the knob for every offset. (A volume rounded to zero may carry a sign.)", "quantifier": "all values, all offsets", "why_tests_cant": "all values of the range, monotonicity over pairs", "anchors": ["content/lib/pyswitch/clients/kemper/actions/amp.py _convert_gain", "content/lib/pyswitch/clients/kemper/actions/rig_transpose.py _convert_transpose", "content/lib/pyswitch/clients/kemper/actions/tempo_bpm.py", "content/lib/pyswitch/clients/kemper/callbacks/convert_volume.py"]}
{"id": "C98", "title": "A preselection starts from the current value of the parameter", "statement": "Turning an encoder with preselection, while nothing is previewed, previews the current value of the parameter changed by the turned amount (limited to the range). (The code does so only if a preview has been accepted or cancelled before and the parameter has not changed since; otherwise it starts from -1 or from an old value, and it raises an exception if it has been cancelled before the value was known.)", "quantifier": "all histories, positions, values, ranges and step widths", "why_tests_cant": "depends on the whole history of the encoder", "anchors": ["content/lib/pyswitch/controller/actions/EncoderAction.py process accept cancel", "content/inputs.py"]}
{"id": "C99", "title": "Each foot switch has its own LEDs", "statement": "For every configuration using different inputs of one of the supported devices (any number, any order): the LED strip is just long enough, no LED belongs to two switches, the set-up raises no exception and leaves all LEDs of all switches white at half brightness and all others off. From then on what the LEDs of a switch show depends only on what has been done with that switch: a color with a brightness set for a switch stays visible, whatever is done with all other switches, until something is done with this switch again.", "quantifier": "all configurations (subsets and orders of the inputs) of all three devices; all histories of LED operations of switches and actions", "why_tests_cant": "exponentially many configurations and unbounded interleavings of operations", "anchors": ["content/lib/pyswitch/hardware/devices/pa_midicaptain_10.py", "content/lib/pyswitch/hardware/devices/pa_midicaptain_mini_6.py", "content/lib/pyswitch/hardware/devices/pa_midicaptain_nano_4.py", "content/lib/pyswitch/controller/controller.py Controller.__init__ get_num_pixels", "content/lib/pyswitch/controller/inputs.py SwitchController"]}
{"id": "C100", "title": "Inputs of a device never conflict in their pins", "statement": "A configuration of inputs of one device starts without a conflict of GPIO pins (with display, LED strip, DIN MIDI ports or other inputs) if and only if no input is used twice and no expression jack is used both as a pedal and as a switch.", "quantifier": "all lists of inputs of all three devices, with and without DIN MIDI", "why_tests_cant": "exponentially many configurations", "anchors": ["content/lib/pyswitch/hardware/devices/pa_midicaptain_10.py", "content/lib/pyswitch/hardware/devices/pa_midicaptain.py PA_MIDICAPTAIN_DIN_MIDI", "content/lib/pyswitch/hardware/adafruit/__init__.py", "content/lib/pyswitch/process.py"]}
{"id": "C101", "title": "The strobe tuner runs around the device", "statement": "The strobe tuner lights the switches of a configuration one after the other as they lie on the device (upper row to the right, lower row back), whatever their order in the configuration. (A switch without LEDs, such as the push button of the wheel in the shipped configuration, gets a place between them, at which nothing is seen.)", "quantifier": "all configurations of all three devices", "why_tests_cant": "exponentially many configurations and orders", "anchors": ["content/lib/pyswitch/controller/strobe.py StrobeController.init", "content/lib/pyswitch/hardware/devices/", "content/inputs.py"]}
{"id": "C102", "title": "The shipped display definition covers the display exactly once", "statement": "Every pixel of the 240 x 240 display belongs to exactly one label of the shipped display definition, no label goes beyond the display, there is a gap of at least one pixel between the backgrounds of any two action labels, and the dot for the protocol state only covers a corner of the rig name label.", "quantifier": "all pixels", "why_tests_cant": "a statement on all pixels and pairs of pixels", "anchors": ["content/display.py", "content/lib/pyswitch/ui/elements.py BidirectionalProtocolState"]}
{"id": "C103", "title": "The configuration editor shows what has been saved", "statement": "When the editor saves a tree of inputs (or splashes) into a configuration file and loads the file again, the same tree is shown: all inputs, actions, arguments, values and variables. This holds for every tree as the editor shows trees, in which each variable stands for one thing, and every file which has the top variable and sets one variable per statement.", "quantifier": "all files, all trees of any size and depth", "why_tests_cant": "trees are recursive and unbounded, and variables set on the way change the file while it is being written", "anchors": ["web/htdocs/python/parser/PySwitchParser.py PySwitchParser.set_inputs, set_splashes, inputs, splashes", "web/htdocs/python/parser/misc/CodeGenerator.py", "web/htdocs/python/parser/misc/CodeExtractor.py"]}
{"id": "C104", "title": "Loading and saving a configuration does not change it", "statement": "Loading a configuration file into the editor and saving the tree without a change leaves every statement of the file as it was (apart from formatting).", "quantifier": "all files, expressions of any size and depth", "why_tests_cant": "unbounded expressions and variables defined by means of each other", "anchors": ["web/htdocs/python/parser/misc/CodeGenerator.py", "web/htdocs/python/parser/misc/CodeExtractor.py", "web/htdocs/python/parser/misc/ReplaceAssignmentTransformer.py"]}
{"id": "C105", "title": "Saving in the editor touches nothing but the edited variables", "statement": "Saving a tree changes only statements which set the top variable or a variable of the tree. All other statements stay the same, all statements of the file stay in their order and set the same variables, and what is added are only statements which set new variables.", "quantifier": "all files and all trees", "why_tests_cant": "a frame property over all statements a file may have", "anchors": ["web/htdocs/python/parser/PySwitchParser.py PySwitchParser.set_assignment", "web/htdocs/python/parser/misc/ReplaceAssignmentTransformer.py", "web/htdocs/python/parser/misc/AddAssignmentTransformer.py"]}
{"id": "C106", "title": "A file saved by the editor sets its variables before it uses them", "statement": "If a configuration file sets every one of its variables before the variable is used, the file after saving a tree does so as well, so that the device can execute it. New variables are put in front of the top variable.", "quantifier": "all files, all trees and all ways names occur in source code", "why_tests_cant": "the order depends on which variables of an arbitrarily nested tree exist already and which are new", "anchors": ["web/htdocs/python/parser/PySwitchParser.py PySwitchParser.set_assignment", "web/htdocs/python/parser/misc/AddAssignmentTransformer.py", "web/htdocs/python/parser/misc/CodeGenerator.py CodeGenerator._resolve_assign"]}
{"id": "C107", "title": "The editor imports exactly what a file needs", "statement": "In a file delivered by the configuration editor every name which is used, and which is known to the editor (an action, a mapping, a variable of display.py) or has been imported in the file before, is imported exactly once and before it is used. Names which are not used are not imported. Nothing else in the file is changed, and names come only from the modules the file or the definitions take them from.", "quantifier": "all files, all sets of importable definitions and all iteration orders of the parser's sets", "why_tests_cant": "the result depends on the iteration order of Python sets of objects, which differs from run to run, and on arbitrary user files", "anchors": ["web/htdocs/python/parser/PySwitchParser.py PySwitchParser.to_source", "web/htdocs/python/parser/misc/AddImportsTransformer.py", "web/htdocs/python/parser/misc/RemoveUnusedImportTransformer.py", "web/htdocs/python/parser/misc/AssignmentNameExtractor.py"]}
{"id": "C108", "title": "Custom messages and keys are sent exactly once per press", "statement": "A switch with custom messages sends the configured bytes of all its actions in their order each time it is pushed, the release messages which are configured each time it is released, and nothing else. A switch with keyboard actions types exactly the configured keys on each push if there is a host, otherwise nothing. With a second message for holding, each press sends just one of both.", "quantifier": "all messages, keys, numbers of actions and all histories of the pin level, the clock and the host", "why_tests_cant": "the samples of the pin come at arbitrary times and in arbitrary sequences", "anchors": ["content/lib/pyswitch/clients/local/actions/custom.py CUSTOM_MESSAGE", "content/lib/pyswitch/clients/local/actions/hid.py HID_KEYBOARD", "content/lib/pyswitch/hardware/adafruit/AdafruitSwitch.py AdafruitSwitch.pushed", "content/lib/pyswitch/controller/inputs.py SwitchController.process"]}
{"id": "C109", "title": "A fixed text is shown as configured", "statement": "The action for a fixed text shows its text in the configured text colour and background, whatever the label has shown before. The actions for custom messages and keys show their text in front of their colour, and light the LEDs in that colour.", "quantifier": "all texts, colours and states of the label", "why_tests_cant": "the label may be in any state left by other actions", "anchors": ["content/lib/pyswitch/clients/local/actions/fixed_text.py DISPLAY_FIXED_TEXT", "content/lib/pyswitch/ui/elements.py DisplayLabel"]}
{"id": "C110", "title": "The memory reports add up", "statement": "Once memory monitoring has been started, every report tells the memory allocated or released since the last call and the share which is still free, so all reports add up to the whole difference. Nothing is printed before monitoring is started. Sizes are shown in the largest unit which fits, rounded to a tenth.", "quantifier": "all histories of calls and all amounts of memory", "why_tests_cant": "sums over unbounded histories with suppressed reports", "anchors": ["content/lib/pyswitch/stats.py Memory", "content/lib/pyswitch/misc.py format_size"]}
{"id": "C111", "title": "The device starts as configured, and no error gets lost", "statement": "The display is switched on before anything else. The configuration files are loaded in a fixed order, then the processing loop runs. An exception at any point ends this at once. It is handed to the MIDI bridge if the bridge is enabled and has been opened, so that files can be repaired, otherwise it is raised and can be seen on the display. Explore mode works with any other configuration files. Either the host or the device can write files, never both, as chosen by the switch held at power up.", "quantifier": "all configurations and all crash points: each step of the start and each round of the loop", "why_tests_cant": "any step and any round of the endless loop can fail", "anchors": ["content/lib/pyswitch/process.py", "content/boot.py", "content/code.py"]}
{"id": "C112", "title": "Low memory is shown", "statement": "If less memory is free at the start than the configured limit (default 15 kB), each text set to a label from then on is replaced by a warning, otherwise all texts are shown as they are.", "quantifier": "all amounts of memory, limits, labels and sequences of texts", "why_tests_cant": "the amount of memory and the sequence of texts are arbitrary", "anchors": ["content/lib/pyswitch/controller/controller.py Controller.init", "content/lib/pyswitch/ui/elements.py DisplayLabel.text"]}
{"id": "C113", "title": "The connection to the device is established, kept, and comes back", "statement": "If PySwitch and a device which follows the bidirectional protocol (as the virtual device of the configuration editor does) both work regularly, no message is under way too long, and the time lease fits to this, then they are connected soon after the start, the connection is never lost and a loss is never reported; after any interruption (cables pulled out, device or PySwitch restarted, any delays) the connection comes back in a bounded time.", "quantifier": "all schedules of updates and message deliveries within the time limits, all histories of interruptions, all other messages in both directions, all time leases", "why_tests_cant": "the interleaving of both sides and the history before an interruption are arbitrary and unbounded", "anchors": ["content/lib/pyswitch/clients/kemper/__init__.py KemperBidirectionalProtocol", "web/htdocs/clients/kemper/virtual/VirtualKemperProtocol.js", "web/htdocs/js/misc/PeriodCounter.js"]}
{"id": "C114", "title": "PySwitch and the device agree on every value when nothing is under way", "statement": "Once a parameter of the bidirectional protocol is registered and the device has been asked for all values, PySwitch and the device may change the parameter in any order, also at the same time, and other parameters may be used; whenever no message for the parameter is under way in either direction, both have the same value of it, as long as the device keeps the connection.", "quantifier": "all parameters, all histories of calls, changes at the device and message deliveries on both sides with any number of messages under way, with and without local feedback", "why_tests_cant": "the changes on both sides may overlap in any order and number", "anchors": ["content/lib/pyswitch/controller/client.py BidirectionalClient", "content/lib/pyswitch/clients/kemper/__init__.py KemperBidirectionalProtocol", "web/htdocs/clients/kemper/virtual/VirtualKemperParameter.js", "web/htdocs/clients/kemper/virtual/VirtualKemperParameters.js", "web/htdocs/clients/kemper/virtual/VirtualKemperClient.js"]}
{"id": "C115", "title": "Editing the actions of an input changes just these actions in the source code", "statement": "The configuration editor shows the actions of an input in the order of inputs.py, each with its name, variable and the source code of its arguments; if any of the shown actions, in any order, and new ones are set as the normal or hold actions of an input and saved, the list of actions of this input consists of the source codes of these actions in this order, and the rest of the file stays as it is. Setting the actions as they were read changes nothing. The same holds for the options of an input.", "quantifier": "all files inputs.py the editor can represent, all inputs, all selections and orders of existing actions and all new actions", "why_tests_cant": "files, inputs and action lists are arbitrary in size and nesting", "anchors": ["web/htdocs/js/model/parser/ParserInput.js actions, setActions", "web/htdocs/js/model/parser/ParserInputAction.js arguments", "web/htdocs/js/model/parser/Parser.js inputData, updateConfig", "web/htdocs/python/parser/misc/CodeGenerator.py"]}
{"id": "C116", "title": "Actions which were set are read, and no others change", "statement": "After setting the actions of an input in the editor, reading them returns exactly these actions, also if they are buffered, and the actions of all other inputs and the other list of this input are the same as before; every action which is read with a name can be set again.", "quantifier": "all trees, inputs, lists of actions, and histories of reading and setting", "why_tests_cant": "the trees, lists and histories are unbounded", "anchors": ["web/htdocs/js/model/parser/ParserInput.js", "web/htdocs/js/model/parser/ParserInputAction.js", "web/htdocs/js/model/parser/ParserTreeElement.js"]}
{"id": "C117", "title": "The editor warns exactly for displays which can be used twice at a time", "statement": "The configuration editor shows a warning for a display if and only if there are current pages of the pagers with which two actions (or one action with two arguments) use this display at the same time; the warning is shown at exactly the actions which are involved in such a case, and once per display.", "quantifier": "all configurations: all inputs, actions, pagers, pages and displays", "why_tests_cant": "configurations with any number of pagers, pages and actions", "anchors": ["web/htdocs/js/model/parser/ParserChecks.js", "web/htdocs/js/model/parser/ParserInputAction.js pager, page"]}
{"id": "C118", "title": "Routes of the editor are executed one after the other", "statement": "Whatever is called while a route callback is in progress, two callbacks are never in progress at the same time, they are started in the order of the calls, each at most once, and when no callback is in progress all calls have been executed.", "quantifier": "all histories of calls and ends of callbacks", "why_tests_cant": "asynchronous interleavings of any length", "anchors": ["web/htdocs/js/routing/CallbackQueue.js"]}
{"id": "C119", "title": "The file transfer uses legal MIDI bytes and loses nothing in its conversions", "statement": "Bytes, numbers up to 16777215 and text which are converted for a message of the file transfer are half-bytes and are converted back to themselves, every byte of every message ever sent is legal within a SysEx message, and messages of other manufacturers are ignored.", "quantifier": "all byte strings, numbers and texts; all histories of two connected bridges", "why_tests_cant": "unbounded data, and every combination of leftover bits", "anchors": ["web/htdocs/lib/jsmidibridge/JsMidiBridge.js: packBytes, unpackBytes, number2bytes, bytes2number, string2bytes, bytes2string, receive", "web/htdocs/js/midi/MidiBridgeHandler.js"]}
{"id": "C120", "title": "Damaged messages of the file transfer are refused", "statement": "A message which was damaged on the way changes no transmission, causes no callback but an error, and is answered with an error (or throws, as set up).", "quantifier": "all messages, all positions and kinds of damage, all states of the bridge", "why_tests_cant": "all messages of all lengths with all damages", "anchors": ["web/htdocs/lib/jsmidibridge/JsMidiBridge.js: crc16, getChecksum, receive"]}
{"id": "C121", "title": "A file which is received is one which was sent", "statement": "Whatever messages are lost, repeated, delayed, reordered or damaged: each file of which a side is told has exactly the path and contents of a file which the other side sent, or of one it has and which was asked for.", "quantifier": "all histories of two bridges with an unreliable connection", "why_tests_cant": "all schedules of losses, repetitions and delays", "anchors": ["web/htdocs/lib/jsmidibridge/JsMidiBridge.js"]}
{"id": "C122", "title": "Without losses, every file arrives once and unchanged", "statement": "Whatever the two sides send to each other and ask each other for, any number at once: when no message is on its way any more, each side has been told of exactly the files and errors sent to it and the files asked for by it, each once and unchanged; a text of n chunks takes 2n+1 messages.", "quantifier": "all histories of two bridges with a reliable connection", "why_tests_cant": "all interleavings of any number of transmissions", "anchors": ["web/htdocs/lib/jsmidibridge/JsMidiBridge.js"]}
{"id": "C123", "title": "Transmissions have different ids", "statement": "Any two of 16777216 successive transmissions of a bridge have different ids.", "quantifier": "all numbers of transmissions and all initial random numbers", "why_tests_cant": "the counter overflows after sixteen million transmissions", "anchors": ["web/htdocs/lib/jsmidibridge/JsMidiBridge.js: generateId"]}
{"id": "C124", "title": "Loading and saving files of the device report what has happened", "statement": "If loading a file is successful, its contents on the device are returned. If saving a file is successful, the device has received the file. Each call succeeds or fails when all messages have been received.", "quantifier": "all paths and contents, all histories before and after the call, all losses and delays", "why_tests_cant": "all schedules of two sides which talk over an unreliable connection", "anchors": ["web/htdocs/js/DeviceController.js: loadFile, saveFile", "web/htdocs/lib/jsmidibridge/JsMidiBridge.js"]}
{"id": "C125", "title": "The device uses the settings chosen in the dialog", "statement": "After any changes in the settings dialog of the editor, the generated config.py can be loaded, and each part of the firmware which reads an option gets the value last chosen for it (the one shown initially, if none was chosen or all were reset), in the emulator and on the device. The generated file always enables the file transfer.", "quantifier": "all sequences of changes of check boxes and number fields and resets, all places where the firmware reads an option", "why_tests_cant": "all values and all histories of the dialog; defaults live in the editor, in the template and in each place of the firmware, and must agree", "anchors": ["web/htdocs/js/model/ConfigFile.js: getAttribute, setAttribute, render", "web/htdocs/js/ui/misc/EmulatorSettings.js: #setConfigFromInput, #downloadConfig", "web/htdocs/templates/config-template.py", "web/htdocs/python/PySwitchRunner.py: init", "content/lib/pyswitch/misc.py: get_option"]}
{"id": "C126", "title": "The display editor keeps what actions use and changes only the chosen element", "statement": "Whatever is done in the display editor, every element whose exported name is used by an action stays in the display with this name. Moving, resizing, renaming or configuring an element leaves all others unchanged; an element is placed where it was dropped (rounded to pixels) and never gets smaller than one pixel; changing the depth moves just this element by one step (or to the front) within its container; a new label comes on top, with a name which is new and valid; removing takes away just the element. The display can be applied if and only if the exported names are different from each other and valid. Closing without applying asks if and only if something was changed. The layout of each label in the generated file is the one shown in the editor.", "quantifier": "all displays the editor can be opened with, all histories of events in the editor, all positions, sizes and texts", "why_tests_cant": "unbounded histories of edits on trees of any size and shape", "anchors": ["web/htdocs/js/ui/editors/display/DisplayEditor.js: reset, create, remove, isDirty, getMessages", "web/htdocs/js/ui/editors/display/DisplayNode.js: setModelBounds, toFront, moveUp, moveDown, removeChild, setType, getMessagesDeep", "web/htdocs/js/ui/editors/display/DisplayParameterList.js", "web/htdocs/js/ui/editors/display/types/DisplayLabelTypeLayout.js", "web/htdocs/js/ui/parser/ParserFrontend.js: showDisplayEditor"]}
{"id": "C127", "title": "The editor does not discard changes without asking", "statement": "Text typed into a code editor stays there until the user types another text, applies it (then it is part of the configuration) or agrees to discard it. Changes of a configuration stay until they are saved somewhere or the user agrees to lose them. Opening another configuration asks for exactly what would get lost, goes on exactly if the user agrees to all of it, and otherwise changes nothing.", "quantifier": "all states of the page, all events (typing, applying, edits, restarts, uploads, loading and saving at all kinds of places, navigation, changes of files by other programs), all answers", "why_tests_cant": "every event must keep the changes in every state", "anchors": ["web/htdocs/js/ui/PySwitchUI.js: confirmIfDirty, applyConfig", "web/htdocs/js/ui/tabs/Tabs.js: confirmIfDirty", "web/htdocs/js/ui/editors/CodeEditor.js", "web/htdocs/js/routing/Routing.js: call", "web/htdocs/js/Controller.js: loadConfiguration, restart", "web/htdocs/js/ui/localfolder/LocalFolderSelection.js: call"]}
{"id": "C128", "title": "What the editor reports as saved is stored", "statement": "Whenever the editor says that a configuration has been saved, its current files are completely stored at that place, and opening the place again shows exactly these files. If saving fails, the configuration keeps its changes and marks. A configuration shown without unsaved changes has been loaded or saved in exactly this form; the mark for unsaved changes is visible whenever there are some. Files of a controller or a folder are written only by saving to it.", "quantifier": "all histories of the page, all outcomes of writing the two files (both, none, only one)", "why_tests_cant": "unbounded histories with failures at any point", "anchors": ["web/htdocs/js/model/configurations/Configuration.js", "web/htdocs/js/model/configurations/LocalFolderConfiguration.js", "web/htdocs/js/model/configurations/PresetConfiguration.js", "web/htdocs/js/model/configurations/ControllerConfiguration.js", "web/htdocs/js/ui/PySwitchUI.js: #initSaveBrowser, #saveToController", "web/htdocs/js/model/parser/Parser.js: init, updateFromSource, updateFromData"]}
{"id": "C129", "title": "Presets are kept until overwritten or deleted on purpose", "statement": "A preset changes only by saving to it, overwriting, deleting (both after the user agreed) or renaming it; a new preset never replaces an existing one; renaming keeps the data and all other presets; no name is listed twice, and every preset which can be opened is listed.", "quantifier": "all histories of the page, all names", "why_tests_cant": "unbounded histories over all names", "anchors": ["web/htdocs/js/model/Presets.js", "web/htdocs/js/ui/presets/LocalPresetsProvider.js", "web/htdocs/js/ui/PySwitchUI.js: #initSaveBrowser"]}
{"id": "C130", "title": "Choosing an entry opens the entry with that name", "statement": "Choosing a preset, controller, example or template in a list leads to a location from which exactly the entry with the chosen name is opened, whatever characters are in the name; different entries have different locations; examples and templates are loaded from the folder with their path.", "quantifier": "all names over all Unicode characters and all path names of the page", "why_tests_cant": "names are unbounded texts over all of Unicode; the path goes through two encodings and up to three decodings", "anchors": ["web/htdocs/js/routing/Routing.js: #setup, call", "web/htdocs/js/ui/PySwitchUI.js", "web/htdocs/js/Controller.js: getControllerUrl", "web/htdocs/js/ui/examples/ExamplesProvider.js", "web/htdocs/js/ui/examples/TemplatesProvider.js"]}
{"id": "C131", "title": "The foot switches of the shipped configuration do what the documentation says", "statement": "With the shipped configuration and the tuner off: switches 1 to 4 switch their effect slot, opposite to what the LEDs show, when pressed, and once more on release if held longer than 600 ms; A, B, C, D, DOWN select rigs 1 to 5 of the current bank with pressed and released, where A and DOWN select the previous and next bank instead if held longer; UP taps the tempo, or switches the tuner on if held longer. Nothing else is ever written by a switch, nothing is written without using a switch, and other switches, reports of the device or a loss of the connection in between do not change this.", "quantifier": "all histories of switch states at all times, interleaved with reports of effect states, effect types, tuner state and rig, and losses of the connection", "why_tests_cant": "the behaviour depends on the times of all switches and on all messages of the device in any order; tests can only try some of the interleavings", "anchors": ["content/inputs.py: Inputs", "content/display.py", "content/communication.py", "content/lib/pyswitch/controller/inputs.py: SwitchController", "content/lib/pyswitch/controller/actions/__init__.py: PushButtonAction", "content/lib/pyswitch/clients/kemper/__init__.py: TunerDisplayCallback"]}
{"id": "C132", "title": "In the tuner, every foot switch of the shipped configuration just leaves it", "statement": "With the shipped configuration and the tuner on, pressing and releasing any foot switch switches the tuner off and does nothing else; as long as the tuner is on, nothing else is written; when the tuner is off again (or the connection is lost), all switches work as usual.", "quantifier": "all histories of switch states at all times, interleaved with all reports of the device", "why_tests_cant": "presses may begin before the tuner is switched on or end after it has been switched off, at the device or by other switches", "anchors": ["content/inputs.py: Inputs", "content/display.py", "content/lib/pyswitch/clients/kemper/__init__.py: TunerDisplayCallback", "content/lib/pyswitch/controller/inputs.py: SwitchController.process"]}
{"id": "C133", "title": "The virtual Kemper plays the rig which has been selected, and PySwitch knows it", "statement": "The active rig of the virtual Kemper is always the one selected last: with the rig buttons in the preselected or current bank, the bank buttons (wrapping around after 125 banks), the number of the rig by MIDI, or the user interface. Used with the shipped configuration, the switches A, B, C, D and DOWN lead to the rig of the switch in the bank reached by long presses. The reported rig name is that of the rig, and after PySwitch has asked for the values it knows the active rig as long as the connection stays.", "quantifier": "all histories of complete MIDI messages, updates and uses of the user interface, all times, all uses of the switches", "why_tests_cant": "the history of messages, preselections and released or held buttons is unbounded and any of them changes the meaning of the next button", "anchors": ["web/htdocs/clients/kemper/virtual/VirtualKemperClientSetup.js", "web/htdocs/clients/kemper/virtual/VirtualKemperClient.js: setRigId, getRigId, updateRig", "web/htdocs/clients/kemper/virtual/VirtualKemperParameter.js: setValue", "content/lib/pyswitch/clients/kemper/mappings/rig.py"]}
{"id": "C134", "title": "The tempo and the tuner of the virtual Kemper follow the player", "statement": "After any history of MIDI messages, updates and uses of its user interface, the virtual Kemper answers the question for the tempo with the tempo which has been tapped or set last: two taps within 3 seconds give the tempo of their distance, longer pauses start again. The tempo light changes with every half beat that an update finds passed. The note and the deviation of the tuner are sent exactly in the updates in which the tuner is on and more than 20 ms have passed since they have been sent last.", "quantifier": "every history of complete messages, updates at any time and uses of the user interface; every tempo from 1 to 256 BPM", "why_tests_cant": "The answer depends on the times of all taps and updates and on everything else received in between; tests try some fixed rhythms.", "anchors": ["web/htdocs/clients/kemper/virtual/VirtualKemperTempo.js", "web/htdocs/clients/kemper/virtual/VirtualKemperTuner.js", "web/htdocs/clients/kemper/virtual/VirtualKemperClient.js: update, receive", "web/htdocs/clients/kemper/virtual/VirtualKemperClientSetup.js"]}
{"id": "C135", "title": "Morphing of the virtual Kemper", "statement": "After any history, the virtual Kemper reports the morph state as selected: the value set last; 0 when another rig has been selected with its button; the morph button and (if enabled) the button of the same rig start morphing to the other end, which is reached within 40 updates, and with the simulated bug of the real device they do nothing. A newly selected rig is not morphed unless asked for, and morphing takes the time which is set.", "quantifier": "every history of complete messages, updates and uses of the user interface", "why_tests_cant": "The state depends on all rig selections, button presses and updates before, in any order.", "anchors": ["web/htdocs/clients/kemper/virtual/VirtualKemperMorph.js", "web/htdocs/clients/kemper/virtual/VirtualKemperClientSetup.js: onRigIdChange", "web/htdocs/clients/kemper/virtual/VirtualKemperClient.js"]}
{"id": "C136", "title": "Foot switch LEDs and tuner mode agree with the device", "statement": "With the shipped configuration at a (virtual) Kemper: after any history of foot switch presses, changes at the device and messages delivered in any interleaving over both cables, once no message about it is under way, the LED of an effect switch is lit exactly if the effect is on at the device, and PySwitch is in tuner mode exactly if the device is.", "quantifier": "every history of foot switch samples, beacons, deliveries in both directions, device updates and uses of the device's own user interface, starting when both are switched on", "why_tests_cant": "Presses and changes at the device may cross on the cables in unboundedly many ways; the claim is about all interleavings.", "anchors": ["content/inputs.py", "content/lib/pyswitch/controller/client.py: ClientParameterMapping, Client.receive", "content/lib/pyswitch/clients/kemper/actions/effect_state.py", "web/htdocs/clients/kemper/virtual/VirtualKemperClient.js", "web/htdocs/clients/kemper/virtual/VirtualKemperParameter.js"]}
{"id": "C137", "title": "Opening and applying the properties of an action changes nothing", "statement": "When the properties of an action of the configuration are opened in the editor and applied without changes, the resulting action has the same effective value for each parameter (the given argument, or the python default), with other quotes at most. It also keeps its place (press or hold), its name and the pager which it belongs to.", "quantifier": "all kinds of actions, all lists of parameters with their metadata, all lists of arguments in any order with any values", "why_tests_cant": "Depends on the combination of parameter type, default, options, order of the arguments and every possible value text; tests only cover single actions.", "anchors": ["web/htdocs/js/ui/parser/ActionProperties.js: ActionProperties.setArguments, createActionDefinition", "web/htdocs/js/ui/parser/PagerProperties.js: PagerProperties.update", "web/htdocs/js/model/parser/ParameterMeta.js: getDefaultValue, convertInput", "web/htdocs/js/ui/parser/ParserFrontendInput.js: promptAction"]}
{"id": "C138", "title": "Suggested names are free", "statement": "The name which the editor suggests for a new pager or encoder button, and the id of a new page, are not used yet by another pager, button or page.", "quantifier": "all sets of names or ids which are in use, of any size", "why_tests_cant": "The set of names in use is unbounded, with gaps, other spellings of numbers and texts that are no numbers.", "anchors": ["web/htdocs/js/ui/parser/PagerProperties.js: getNextPagerAssign", "web/htdocs/js/ui/parser/ActionPropertiesEncoder.js: getNextEncoderAssign", "web/htdocs/js/ui/parser/PagesList.js: getNextPageId"]}
{"id": "C139", "title": "The buttons of the list of pages do what they say", "statement": "In the list of the pages of a pager, the button for adding a page appends one page with a new id, and the button for removal of a page removes this page and no other one.", "quantifier": "all lists of pages and all sequences of adding, removing and renaming pages", "why_tests_cant": "Must hold after any history of operations on any list of pages.", "anchors": ["web/htdocs/js/ui/parser/PagesList.js: set, addPage, removePage, createItem"]}
{"id": "C140", "title": "Selecting another action in the dialog takes values over", "statement": "When another action is selected in the dialog with the properties, each parameter for which a parameter of the same name had a value other than its default before gets this value, if its input can show it; texts, new parameters and those which had their default get their own default. Press or hold is kept, and the name is the suggested one.", "quantifier": "all lists of parameters before and after, all states of the inputs before", "why_tests_cant": "Ranges over all pairs of actions and all values entered.", "anchors": ["web/htdocs/js/ui/parser/ActionProperties.js: get (takeOverValues)", "web/htdocs/js/ui/parser/ParserFrontendInput.js: promptAction (onSelect)"]}
{"id": "C141", "title": "Edits in the lists of actions reach the configuration", "statement": "Adding, replacing, removing and moving actions in the lists of the editor, and dragging them within and between inputs, have exactly the effect on the configuration which is shown, one edit after the other; none is lost, dragging neither loses nor doubles actions, and the actions of other inputs stay as they are.", "quantifier": "all configurations, all histories of edits and all times at which the delayed updates and the restarts take place", "why_tests_cant": "The updates are delayed by timers, each is followed by a restart that creates all lists anew; all interleavings and histories count.", "anchors": ["web/htdocs/js/ui/parser/ParserFrontendInput.js: addAction, replaceAction, removeAction, updateInput, promptEditAction", "web/htdocs/js/ui/parser/ParserFrontend.js: scheduleForUpdate, updateConfig", "web/htdocs/js/Controller.js: restart"]}
{"id": "C142", "title": "The search for devices has one result", "statement": "The search over all MIDI ports for a controller or client calls exactly one callback, once: success with the port whose answer in time came first, or failure when the time of all ports is over without an answer. The ports of the answering device are used, and afterwards nothing listens any more except the connection that was found.", "quantifier": "all sets of MIDI ports and all orders of answers and timeouts", "why_tests_cant": "All ports are tried at the same time; answers and timeouts can come in any order and number.", "anchors": ["web/htdocs/js/midi/MidiHandler.js: scan, getMatchingPortPairs, getPortPair", "web/htdocs/js/midi/MidiBridgeHandler.js: connect", "web/htdocs/js/ClientController.js: #scan, #scanPort", "web/htdocs/js/DeviceController.js: scan"]}
{"id": "C143", "title": "The emulator receives every MIDI message once and in order", "statement": "The messages which the emulated controller receives from the client are exactly those which the client sent on the channels listened to, each once, in the same order and unchanged, however they are spread over time.", "quantifier": "all messages, all interleavings of arriving messages with calls of receive(), all buffer sizes and channels", "why_tests_cant": "Messages arrive at any time between the calls, in any number and length; the loss depends on what is still in the buffer.", "anchors": ["web/htdocs/python/wrappers/wrap_adafruit_midi.py: WrapMidiInput.read", "web/htdocs/js/midi/PythonMidiWrapper.js: messageQueue", "web/htdocs/python/adafruit_midi/__init__.py: receive", "web/htdocs/python/PySwitchRunner.py: in_buf_size"]}
{"id": "C144", "title": "One engine at a time, which can be started and stopped", "statement": "In the editor, run(config) ends the engine before and starts exactly one new engine, which ticks with that configuration until it is stopped or fails; stop() always ends, and afterwards no engine ticks any more.", "quantifier": "all histories of calls of run() and stop(), all interleavings of their continuations with the timeouts of the engines, all errors in between", "why_tests_cant": "The calls are asynchronous and each engine renews its own timer; what is left over depends on how calls, awaits and timeouts interleave.", "anchors": ["web/htdocs/js/PySwitchRunner.js: run, stop", "web/htdocs/python/PySwitchRunner.py: run, init, tick, stop", "web/htdocs/js/Controller.js: restart, loadConfiguration"]}
{"id": "C145", "title": "The MIDI monitor shows the last messages and hides exactly the ignored ones", "statement": "While it runs, the MIDI monitor shows each message with its direction and bytes, in order, up to the last 100 rows, except for those which are ignored at that time: messages with the same name as an ignored one, or with the same bytes if one of them has no name. Ignoring a message hides it until it is removed from the list of ignored messages; this list and the running state survive loading the page again.", "quantifier": "all histories of messages, ignoring, removing, clearing, stopping, resuming and reloading", "why_tests_cant": "What is shown depends on the whole history of clicks and messages; a test tries some of them.", "anchors": ["web/htdocs/js/ui/misc/MidiMonitor.js: addMessage, addComment, #doExclude, #excludeMessage, #includeMessage, #cleanup, #resume, #stop", "web/htdocs/js/misc/LocalState.js: get, set"]}
{"id": "C146", "title": "The editor listens to the connected controller with one bridge", "statement": "While the editor is connected to a controller, exactly one bridge of the editor gets the messages of its port, and none those of other controllers: connecting to the connected port again changes nothing, an answer makes the connection which was asked for, a call without an answer leaves nothing behind, and after changing between controllers loading, saving and the search for the controller work as before.", "quantifier": "all histories of connect calls, answers and timeouts in any interleaving, for all sets of ports; all schedules of messages at a port, for all states of the bridges", "why_tests_cant": "Each connection works on its own; what is left behind shows only in histories which return to an earlier controller, and that messages never end can not be observed by a test.", "anchors": ["web/htdocs/js/DeviceController.js:connect", "web/htdocs/js/DeviceController.js:loadFile", "web/htdocs/js/DeviceController.js:saveFile", "web/htdocs/js/midi/MidiBridgeHandler.js:connect", "web/htdocs/js/midi/MidiBridgeHandler.js:detach", "web/htdocs/js/midi/MidiHandler.js:addListener"]}
{"id": "C147", "title": "The inputs of the emulated controller do what the user does with them", "statement": "Whenever the firmware reads an emulated switch it is pushed exactly if the user holds it at that time, with the mouse or by touch; each push is seen once; an emulated potentiometer has the last position set, in its range; an emulated encoder wheel has been turned by the sum of the ways of all drags, and while it is dragged by the way since the start of the drag; the monitor tells each push and release.", "quantifier": "all histories of pointer events of a switch mixed with reads, all sequences of drags with all paths (also fractional positions) and moves between them", "why_tests_cant": "Pointer events and reads mix in any order, and errors of positions could add up over any number of moves.", "anchors": ["web/htdocs/js/ui/PySwitchFrontend.js:#createInput", "web/htdocs/js/ui/misc/WcRotationInput.js:onPointerMove", "web/htdocs/python/wrappers/wrap_io.py:DigitalInOut.value", "web/htdocs/python/wrappers/wrap_io.py:AnalogIn.value", "web/htdocs/python/wrappers/wrap_io.py:IncrementalEncoder.position"]}
{"id": "C148", "title": "The emulator shows texts, rectangles and LEDs as the firmware sets them", "statement": "Wrapping a text of a label loses, adds and moves no word, breaks lines only where the next word does not fit, and makes no line wider than allowed unless it is one word; the lines are drawn at equal distances around the anchor; each pixel of the display shows the topmost rectangle there, with groups at any depth, or black; each LED shows the color which was set last for it, is off exactly for black, and brighter colors are shown brighter.", "quantifier": "all texts, all widths of texts, all trees of groups and rectangles and all pixels, all sequences of colors of LEDs, all correction functions which grow with the brightness", "why_tests_cant": "Texts, nesting and colors are unbounded; a wrapped text depends on the widths which the browser measures.", "anchors": ["web/htdocs/python/wrappers/wrap_adafruit_display.py:wrap_text_to_pixels", "web/htdocs/python/wrappers/wrap_adafruit_display.py:Label.render", "web/htdocs/python/wrappers/wrap_adafruit_display.py:Group.render", "web/htdocs/python/wrappers/WrapDisplayDriver.py:WrapTFT.update", "web/htdocs/python/wrappers/wrap_adafruit_led.py:LedList.__setitem__"]}
{"id": "C149", "title": "The emulator is connected to one client at a time", "statement": "Whatever is loaded, chosen, searched for and created, in any order: the client the emulator uses is the only one which listens to a MIDI port or has a running timer, and a virtual client in use is the one on the screen; each message of the connected port is queued once, messages of other ports never; the last choice is remembered.", "quantifier": "all sets of ports, all orders of loading, choosing, ends of searches, created virtual clients and messages", "why_tests_cant": "Searches take a second and can overlap with other choices and with loading configurations in any way.", "anchors": ["web/htdocs/js/ClientController.js:#connect", "web/htdocs/js/PySwitchRunner.js:setMidiWrapper", "web/htdocs/js/midi/PythonMidiWrapper.js", "web/htdocs/js/ui/PySwitchUI.js:showVirtualClient"]}
{"id": "C150", "title": "All types of MIDI messages survive sending and receiving, whatever types are imported", "statement": "For every selection of message types of the MIDI library, imported in any order: each message which can be sent has the bytes of the MIDI specification, and a stream of messages on any channels is received as sent, in the same order, just those on channels which are received, with nothing left over; messages of types which are not imported are reported as unknown; if several types match, the one with the most specific mask is taken; the names of notes give their numbers in all octaves.", "quantifier": "all selections and orders of imported types, all messages, channels and streams of messages, all names of notes", "why_tests_cant": "There are too many selections, orders, values and sequences of messages to try them.", "anchors": ["web/htdocs/python/adafruit_midi/midi_message.py:MIDIMessage.register_message_type", "web/htdocs/python/adafruit_midi/midi_message.py:MIDIMessage.from_message_bytes", "web/htdocs/python/adafruit_midi/midi_message.py:note_parser", "web/htdocs/python/adafruit_midi/pitch_bend.py:PitchBend", "web/htdocs/python/adafruit_midi/mtc_quarter_frame.py:MtcQuarterFrame", "content/lib/pyswitch/controller/midi.py"]}
{"id": "C151", "title": "The emulator is connected to the client which has been chosen", "statement": "After a choice of the user, or after loading a configuration with a remembered choice, the emulator is connected to what has been chosen and never to anything else; with the automatic choice it stays connected as it is while the search goes on, and is then connected to the port which has been found, or else to the virtual client of the configuration.", "quantifier": "all sets of ports, all histories before the choice, all orders of events after it", "why_tests_cant": "Searches take a second and can overlap with other choices and with loading configurations in any way.", "anchors": ["web/htdocs/js/ClientController.js:init", "web/htdocs/js/ClientController.js:#connect", "web/htdocs/js/ClientController.js:#scan", "web/htdocs/js/ui/PySwitchUI.js"]}
{"id": "C152", "title": "Interrupted MIDI messages are reported as bad", "statement": "If a status byte comes where a data byte of a MIDI message of fixed length is expected, the message is reported as bad, and no message with a wrong value is delivered.", "quantifier": "all message types of the library, all selections of imported types, all bytes", "why_tests_cant": "All positions and values of all types with any selection of imports.", "anchors": ["web/htdocs/python/adafruit_midi/midi_message.py:MIDIMessage.from_message_bytes", "web/htdocs/python/adafruit_midi/pitch_bend.py:PitchBend.from_bytes"]}
{"id": "C153", "title": "Saving does not touch the configuration and stores nothing but its contents", "statement": "Whatever the user does while a configuration is being saved to a folder or a controller, and whatever fails: the configuration stays what the user has made of it; each stored file is one the configuration has had at some time; a change stays marked as long as no saving is finished, so a failed saving does not hide it; a folder which is saved to once, without failure, has both files as they were when saving was started.", "quantifier": "all histories of changes by all editors, starts of saving, written files, ends and failures in any order, for both kinds of places", "why_tests_cant": "The steps of saving and the changes of the user can interleave in infinitely many ways.", "anchors": ["web/htdocs/js/model/configurations/Configuration.js:save", "web/htdocs/js/model/configurations/LocalFolderConfiguration.js:doSave", "web/htdocs/js/DeviceController.js:saveConfig", "web/htdocs/js/model/parser/Parser.js:updateConfig", "web/htdocs/js/model/parser/Parser.js:updateFromSource"]}
{"id": "C154", "title": "A configuration without the mark for unsaved changes is stored as it is", "statement": "If a configuration is not marked as changed, the files at its place are just what the user has made of it, even if savings overlap or fail.", "quantifier": "all histories of changes, starts of saving, written files, ends and failures in any order, for folders and controllers", "why_tests_cant": "The steps of saving and the changes of the user can interleave in infinitely many ways.", "anchors": ["web/htdocs/js/model/configurations/Configuration.js:save", "web/htdocs/js/model/configurations/Configuration.js:resetDirtyState", "web/htdocs/js/DeviceController.js:saveConfig"]}
{"id": "C155", "title": "Colour inputs show the colour of the text and set it", "statement": "For each colour given as three numbers from 0 to 255 with any blanks around them, and for each name of the colours of the firmware, the colour input of the editors shows just this colour; choosing a colour with it gives the Python code of this colour, which is shown again unchanged.", "quantifier": "all 16777216 colours, all numbers of blanks around the numbers, all names of colours", "why_tests_cant": "There are too many colours and spellings to try all of them.", "anchors": ["web/htdocs/js/misc/Tools.js:hexToRgb", "web/htdocs/js/misc/Tools.js:rgbToHex", "web/htdocs/js/model/parser/Parser.js:resolveColor", "web/htdocs/js/ui/parser/ActionProperties.js:createAdditionalColorInputOptions", "web/htdocs/js/ui/misc/ParameterList.js:createAdditionalColorInputOptions", "content/lib/pyswitch/colors.py:Colors"]}
{"id": "C156", "title": "Just the active tab is displayed, and it is active again after a restart", "statement": "At each time exactly the active tab is displayed and highlighted. Selecting a tab makes it active; it stays active while other tabs are added or removed and the panel is opened or closed. The name of the active tab and the state of the panel are remembered: when the application is started again, the first tab of this name becomes active, in whatever order tabs are added; at the very first start it is the first tab.", "quantifier": "all histories of adding, removing (confirmed or not) and selecting tabs by click or name, opening and closing the panel, from any remembered state", "why_tests_cant": "There are infinitely many histories and remembered states.", "anchors": ["web/htdocs/js/ui/tabs/Tabs.js:setActive", "web/htdocs/js/ui/tabs/Tabs.js:add", "web/htdocs/js/ui/tabs/Tabs.js:remove", "web/htdocs/js/ui/tabs/Tab.js:activate", "web/htdocs/js/ui/PySwitchUI.js:showVirtualClient"]}
{"id": "C157", "title": "There is always an active tab", "statement": "As soon as there is a tab, one of the tabs is active and displayed.", "quantifier": "all histories of adding, removing and selecting tabs, from any remembered state", "why_tests_cant": "There are infinitely many histories and remembered states.", "anchors": ["web/htdocs/js/ui/tabs/Tabs.js:remove", "web/htdocs/js/ui/PySwitchUI.js:showVirtualClient"]}
{"id": "C158", "title": "The browser popup shows all useful entries in order, and each of them can be reached", "statement": "The popup for loading, saving and selecting lists each child of the displayed folder which can be selected or has contents, just once, and nothing else, sorted, with equal entries in their original order. Selecting a folder shows it, selecting another entry calls just this one and closes the popup (unless it is to stay); the back button and the displayed path lead up and call nothing. Each entry of a tree with which something can be done can be reached by selecting entries of the lists.", "quantifier": "all trees of entries, all orders of texts, all histories of opening, selecting, going back and closing", "why_tests_cant": "There are infinitely many trees and ways through them.", "anchors": ["web/htdocs/js/ui/popups/BrowserPopup.js:browse", "web/htdocs/js/ui/popups/BrowserPopup.js:sort", "web/htdocs/js/ui/popups/BrowserEntry.js"]}
{"id": "C159", "title": "The browser popup is opened where it was, and calls only what the user selects", "statement": "When the popup is opened again, it shows the folder which was displayed last, or the nearest one which is still there, and calls nothing.", "quantifier": "all trees and changes of trees, all histories of opening, selecting, going back and closing", "why_tests_cant": "There are infinitely many trees and ways through them.", "anchors": ["web/htdocs/js/ui/popups/BrowserPopup.js:browse", "web/htdocs/js/ui/popups/BrowserEntry.js:resolvePath"]}
{"id": "C160", "title": "A Kemper is detected by its answer, and by nothing else", "statement": "When the web application searches for a Kemper on all MIDI ports (with different names), it finds exactly the port from which the first message with the value of the rig volume comes in time, whatever other messages arrive at the ports, including the request itself when it is echoed. The virtual Kemper answers the request at once with one message which is accepted, after any history with complete messages.", "quantifier": "all messages, all ports, all interleavings of messages and timeouts, all histories of the virtual device", "why_tests_cant": "Any bytes can arrive at any of the ports in any order, and the device can have any history.", "anchors": ["web/htdocs/clients/kemper/KemperClientDetector.js:test", "web/htdocs/js/ClientController.js:#scanPort", "web/htdocs/clients/kemper/virtual/VirtualKemperParameterDefault.js:parse"]}
{"id": "C161", "title": "Any mix of rig and bank buttons selects the rig which is meant", "statement": "A panel with any number of rig up/down, bank up/down, bank select and rig select buttons (without preselection) is connected to the virtual Kemper. After every sequence of presses of these buttons and of rigs chosen at the device, the active rig of the device is the one which follows from the meaning of the buttons: the next or previous rig, the same slot five rigs on, the same slot in the configured (or off) bank, the configured rig or, when it is already active, the other rig and bank, which are fixed or the last ones used. The rig always exists, and all buttons know it.", "quantifier": "all panels with valid parameters, all histories of the device before, all sequences of presses, updates and selections at the device", "why_tests_cant": "There is no bound for the number of buttons and presses, and what the automatic off rig means depends on the whole history.", "anchors": ["content/lib/pyswitch/clients/kemper/actions/rig_select.py:KemperRigSelectCallback", "content/lib/pyswitch/clients/kemper/actions/rig_up_down.py:KemperRigChangeCallback", "content/lib/pyswitch/clients/kemper/actions/bank_select.py:KemperBankSelectCallback", "content/lib/pyswitch/clients/kemper/actions/bank_up_down.py:KemperBankChangeCallback", "web/htdocs/clients/kemper/virtual/VirtualKemperClientSetup.js"]}
{"id": "C162", "title": "Any mix of rig and bank buttons with preselection", "statement": "As C161, and some of the bank up/down and bank select buttons only preselect a bank. The bank takes effect with the next rig select button, which then selects its rig in this bank and clears the preselection.", "quantifier": "all panels with valid parameters, all histories of the device before, all sequences of presses, updates and selections at the device", "why_tests_cant": "Preselection is state shared by all buttons and kept by the device as well; both have to agree after every history.", "anchors": ["content/lib/pyswitch/clients/kemper/actions/bank_select.py:KemperBankSelectCallback", "content/lib/pyswitch/clients/kemper/actions/bank_up_down.py:KemperBankChangeCallback", "content/lib/pyswitch/clients/kemper/actions/rig_select.py:KemperRigSelectCallback.push"]}
{"id": "C163", "title": "Rig and bank buttons can be held while others are used", "statement": "With a panel of any rig up/down, bank up/down, bank select and rig select buttons (without preselection) and the virtual Kemper, buttons can be held while others are pushed and released, in any order. The active rig is always the one meant by the buttons in the order in which they have been pushed; releasing a button changes nothing; all buttons know the rig.", "quantifier": "all panels with valid parameters, all histories of the device before, all interleavings of pushes, releases, updates and selections at the device", "why_tests_cant": "The number of interleavings of held buttons is unbounded, and every release sends a message which the device handles in a state changed by other buttons.", "anchors": ["content/lib/pyswitch/clients/kemper/actions/rig_select.py:KemperRigSelectCallback", "content/lib/pyswitch/clients/kemper/actions/rig_up_down.py:KemperRigChangeCallback", "content/lib/pyswitch/clients/kemper/actions/bank_select.py:KemperBankSelectCallback", "web/htdocs/clients/kemper/virtual/VirtualKemperClientSetup.js"]}
{"id": "C164", "title": "The editor shows what the code means", "statement": "Once a configuration has been loaded, whatever the user applies, uploads or edits, and also after errors: whenever python accepts the code of the configuration, the lists of actions and the display editor show what this code means. Applying or uploading code puts exactly this code into the configuration and reports an error exactly if python does not accept it, so broken code can always be repaired. A restart changes no code and succeeds.", "quantifier": "all configurations which can be loaded, all sequences of applied texts, uploads, edits and restarts, all parsers and generators of code which agree with each other", "why_tests_cant": "The parser keeps parsed files, trees and the hardware between the events and after exceptions; agreement has to hold after every history.", "anchors": ["web/htdocs/js/model/parser/Parser.js:init", "web/htdocs/js/model/parser/Parser.js:updateFromSource", "web/htdocs/js/model/parser/Parser.js:updateFromData", "web/htdocs/js/model/parser/Parser.js:updateConfig", "web/htdocs/python/parser/PySwitchParser.py:from_source", "web/htdocs/js/Controller.js:restart"]}
{"id": "C165", "title": "Edits change the code which is there", "statement": "An edit of the lists of actions or of the display changes the code of the configuration just as the edit says: the new code is generated from the edited trees and the present code, and nothing else of it is replaced.", "quantifier": "all configurations which can be loaded, all sequences of applied texts, uploads, edits and restarts before the edit, all edits", "why_tests_cant": "The code is generated from files which have been parsed before, at some point of an arbitrary history with errors.", "anchors": ["web/htdocs/js/model/parser/Parser.js:updateConfig", "web/htdocs/js/model/parser/Parser.js:updateFromSource", "web/htdocs/js/ui/parser/ParserFrontend.js:updateConfig", "web/htdocs/js/ui/editors/CodeEditor.js:apply"]}
{"id": "C166", "title": "The names of rig and bank actions in the editor say what the actions do", "statement": "The name which the configuration editor shows for a RIG_SELECT, RIG_SELECT_AND_MORPH_STATE or BANK_SELECT action (Select Rig 3, Toggle Rigs 3/1, Select Bank 4, Preselect Bank 4, Toggle Banks 4/2, ...) is true of the action: pressing its switch does with the device what the name says. A name says just one thing, positional and keyword arguments are treated as python does, and the values of all other arguments do not change the name.", "quantifier": "all calls which python accepts, with any other arguments; all rig and bank numbers; all panels, histories and states of the device", "why_tests_cant": "The name is put together by replacing tokens with source code, and what the action does depends on the firmware and on the history; tests only see some calls and some states.", "anchors": ["web/htdocs/clients/kemper/KemperFunctionMeta.js:getShortDisplayName", "web/htdocs/clients/kemper/KemperFunctionMeta.js:#replaceParameterTokens", "web/htdocs/js/model/parser/FunctionMeta.js:getArgument", "web/htdocs/python/parser/misc/CodeExtractor.py:_parse_call", "content/lib/pyswitch/clients/kemper/actions/rig_select.py", "content/lib/pyswitch/clients/kemper/actions/bank_select.py"]}
{"id": "C167", "title": "The general settings of a switch take effect and are shown as they are", "statement": "Each change of the hold time or the hold repeat option in the settings dialog of a switch is written to the configuration for this switch, and to no other switch and no other option, so that the device uses it. When the dialog is opened, it shows the hold time and the repeat option which the device uses. Whatever is done with the dialog, switches for which it is not opened keep their options and no switch is added or lost.", "quantifier": "all configurations, all sequences of opening and closing the dialog for any switch, changes of both options and restarts of the emulator", "why_tests_cant": "Whether a change gets lost depends on the order of changes, restarts and openings of the dialog; a test with one change per dialog never sees the handle become invalid.", "anchors": ["web/htdocs/js/ui/parser/InputSettings.js: setup", "web/htdocs/js/model/parser/ParserInput.js: holdTimeMillis, setHoldTimeMillis, holdRepeat, setHoldRepeat", "web/htdocs/js/model/parser/ParserTreeElement.js: checkValid", "web/htdocs/js/model/parser/Parser.js: updateConfig", "web/htdocs/js/ui/parser/ParserFrontendInput.js: promptInputSettings", "content/lib/pyswitch/controller/inputs.py: SwitchController"]}
{"id": "C168", "title": "On each page, every switch does what is assigned to it there", "statement": "With a pager, pressing a switch pushes exactly those of its actions which belong to the page shown (or to all pages), in order; letting it go releases the same actions, so that each action is pushed and released in turns and a momentary button is never left on. The page shown is the one selected last. Switches with hold actions push and release an action at once. Nothing raises, and there is always a page shown.", "quantifier": "all pagers with at least one page, all assignments of actions, pagers and page selections to any number of switches, and all sequences of pressing, holding and releasing them in any overlap", "why_tests_cant": "The effect depends on how presses of several switches overlap with changes of the page, and on the order of the actions of a switch; tests use single presses on one page.", "anchors": ["content/lib/pyswitch/controller/inputs.py: SwitchController.process", "content/lib/pyswitch/controller/controller.py: Controller.reset_actions", "content/lib/pyswitch/clients/local/actions/pager.py: PagerAction.push", "content/lib/pyswitch/clients/local/actions/pager_direct.py: DirectPagerProxy.push", "content/lib/pyswitch/controller/actions/__init__.py: PushButtonAction.reset"]}
{"id": "C169", "title": "Popups stay until they are closed, ask before, and tell it once", "statement": "A popup is visible from when it is shown until it is closed by Escape, by a click outside of it, by its close button or by the program. If it has a question (unapplied changes of the display editor), the user can close it only by answering yes. Its close callback is called exactly once for each closing, the Enter callback only while it is open.", "quantifier": "all sets of popups and options, and all histories of showing, hiding, keys, clicks, answers and timers", "why_tests_cant": "The handlers are registered globally and partly by timers; what a key or click does depends on the whole history of showing and hiding.", "anchors": ["web/htdocs/js/ui/popups/Popup.js: show, hide", "web/htdocs/js/ui/PySwitchUI.js: getPopup", "web/htdocs/js/ui/parser/ParserFrontend.js: showDisplayEditor"]}
{"id": "C170", "title": "A wheel with pages only adjusts the parameters of the current page", "statement": "When several parameters are assigned to one wheel and a pager (or another callback) decides which of them are enabled, turning the wheel changes exactly the enabled parameters by the turned amount (limited to their ranges), the device is told their values, and selecting a page does not change a parameter: what has been turned on other pages does not count.", "quantifier": "all numbers of actions on a wheel, all their ranges and step widths, all start values in the ranges, all sequences of positions and of enabled actions, with or without shared preview displays", "why_tests_cant": "The value depends on the whole history of turns and page changes; tests use one action, or one page.", "anchors": ["content/lib/pyswitch/controller/inputs.py: ContinuousController.process", "content/lib/pyswitch/controller/actions/EncoderAction.py: EncoderAction.process, cancel, enabled", "content/lib/pyswitch/controller/preview.py: ValuePreview.preview"]}
{"id": "C171", "title": "A preview display has one pending value at most", "statement": "Several encoder actions with preselection can share one preview display and one accept button. After any history of wheel movements, page changes, messages of the device and presses of accept and cancel buttons, pressing an accept button of such actions sends one value at most, which is the value shown last on the display, for the action which has shown it. If the display shows a value of one of the actions of the button, exactly this value is sent.", "quantifier": "all wheels with any number of actions in any configuration, all displays, all histories of readings (with any actions enabled at each of them), device values, reset mapping values, accept and cancel presses for any actions, and all lists of preselecting actions of the display the accept button belongs to", "why_tests_cant": "the pending values of all actions are state which depends on the whole history; tests use one action with one accept button", "anchors": ["content/lib/pyswitch/controller/actions/EncoderAction.py:EncoderAction.process", "content/lib/pyswitch/controller/actions/EncoderAction.py:EncoderAction.accept", "content/lib/pyswitch/controller/actions/EncoderAction.py:EncoderAction.cancel", "content/lib/pyswitch/controller/preview.py:ValuePreview.preview", "content/lib/pyswitch/clients/local/actions/encoder_button.py"]}
{"id": "C172", "title": "A pending value is visible until it is accepted or cancelled", "statement": "What an accept button sends for actions with preselection on one preview display is visible on this display when the button is pressed.", "quantifier": "all wheels with any number of actions in any configuration, all displays, all histories of readings, device values, reset mapping values, accept and cancel presses, all accept buttons", "why_tests_cant": "the display is shared by all actions, any of which can reset it at any time", "anchors": ["content/lib/pyswitch/controller/actions/EncoderAction.py:EncoderAction.process", "content/lib/pyswitch/controller/actions/EncoderAction.py:EncoderAction.accept", "content/lib/pyswitch/controller/actions/EncoderAction.py:EncoderAction.cancel", "content/lib/pyswitch/controller/preview.py:ValuePreview.preview", "content/lib/pyswitch/clients/local/actions/encoder_button.py"]}
{"id": "C173", "title": "Messages stay as long as they should", "statement": "Errors and warnings of the web application stay visible until the user clicks them or another configuration is loaded, infos and notices of success for three seconds at most, and messages marked to be replaced until the next message. The newest message is always on top, and no message disappears for another reason.", "quantifier": "all histories of messages of all types, clicks, reloads and device transfers, all times at which the user looks", "why_tests_cant": "which messages are visible depends on the whole history and on time; tests look at single messages", "anchors": ["web/htdocs/js/ui/misc/Notifications.js:Notifications.message", "web/htdocs/js/ui/PySwitchUI.js:PySwitchUI.message", "web/htdocs/js/Controller.js:Controller.handle", "web/htdocs/js/DeviceController.js:DeviceController.connect"]}
{"id": "C174", "title": "Every error is shown with its complete text", "statement": "Every error which is reported, by the application or by the controller device, is shown at once at the top of the messages, with its complete text.", "quantifier": "all histories, all error texts, errors of the application and of the device at any time", "why_tests_cant": "the texts come from the Python interpreter and from the device, and the handler for errors of the device changes with the history", "anchors": ["web/htdocs/js/ui/misc/Notifications.js:Notifications.message", "web/htdocs/js/ui/PySwitchUI.js:PySwitchUI.message", "web/htdocs/js/Controller.js:Controller.handle", "web/htdocs/js/DeviceController.js:DeviceController.connect"]}
{"id": "C175", "title": "The lists of MIDI ports show what is connected", "statement": "Whenever a list of MIDI ports is opened (controllers to load from or to save to, client devices), it shows exactly the devices connected at this time, in both directions, and the messages of all of them are received.", "quantifier": "all histories of ports coming and going, MIDI access being granted, lists being opened and messages, all numbers and names of ports", "why_tests_cant": "needs all orders of plugging in devices and opening the lists; tests use fixed mocked ports", "anchors": ["web/htdocs/js/ui/misc/PortsProvider.js:PortsProvider.getToc", "web/htdocs/js/midi/MidiHandler.js:MidiHandler.init", "web/htdocs/js/midi/MidiHandler.js:MidiHandler.getMatchingPortPairs", "web/htdocs/js/ui/PySwitchUI.js:#initLoadBrowser"]}
{"id": "C176", "title": "Everybody gets the complete catalogue", "statement": "Everybody who asks the configuration editor for the available actions, callbacks or mappings gets all of them, with their meta information, no matter who else asks at the same time and which requests fail.", "quantifier": "all numbers of callers, all orders in which their calls, the answers to their requests and failures happen, all numbers of clients", "why_tests_cant": "the result depends on the schedule of asynchronous requests; tests call the function once and wait for it", "anchors": ["web/htdocs/js/model/parser/Parser.js:Parser.getAvailableActions", "web/htdocs/js/model/parser/Parser.js:Parser.getAvailableCallbacks", "web/htdocs/js/model/parser/Parser.js:Parser.getAvailableMappings", "web/htdocs/js/model/parser/Parser.js:Parser.#mixInMetaInformation"]}
{"id": "C177", "title": "Settings of display callbacks are passed on and shown again", "statement": "If the user changes settings of a callback in the display editor (the callback of a label, or the display driver with its tuner and strobe settings), the callback gets for each parameter what has been entered last, all other arguments stay as they are, and the dialog shows what has been entered when it is opened again.", "quantifier": "all arguments of the callback, all definitions of parameters with defaults, all histories of inputs", "why_tests_cant": "the conversions must fit together for all values and types; the tests of the editor click through a few inputs", "anchors": ["web/htdocs/js/ui/editors/display/DisplayCallbackParameterList.js:DisplayCallbackParameterList.setup", "web/htdocs/js/ui/misc/ParameterList.js:ParameterList.convertValue", "web/htdocs/js/ui/misc/ParameterList.js:ParameterList.unconvertValue", "web/htdocs/js/model/parser/ParameterMeta.js:ParameterMeta.type"]}
{"id": "C178", "title": "Settings of a tuner element are independent and shown again", "statement": "If the user changes a setting of a tuner element in the display editor, the element gets what has been entered, nothing else changes, and the dialog shows the current setting whenever it is opened.", "quantifier": "all arguments of the element, all settings, all entered texts, all lists of mappings and fonts", "why_tests_cant": "must hold for all values of the arguments, whether they come from the code or from the dialog; tests open the dialog once", "anchors": ["web/htdocs/js/ui/editors/display/types/TunerDisplayTypeParameterList.js:TunerDisplayTypeParameterList.#setupParameters", "web/htdocs/js/ui/editors/display/DisplayNode.js:DisplayNode.setParameter", "web/htdocs/js/ui/editors/display/DisplayNode.js:DisplayNode.getParameter"]}
{"id": "C179", "title": "The callback of a label is the one the user has entered", "statement": "If the user enters the name of a callback for a label in the display editor, the label has this callback, with exactly the parameters it needs, and keeps its settings if it had it before; if the user removes the callback by clearing the input or by entering what is shown for labels without callback, the label has none.", "quantifier": "all labels, all entered names, all catalogues of callbacks", "why_tests_cant": "must hold for every text in a free input and every catalogue; tests enter a few names", "anchors": ["web/htdocs/js/ui/editors/display/types/DisplayLabelTypeParameterList.js:DisplayLabelTypeParameterList.#setCallback", "web/htdocs/js/ui/editors/display/types/DisplayLabelTypeParameterList.js:DisplayLabelTypeParameterList.#setupSelectCallbackParameter", "web/htdocs/js/model/parser/Parser.js:Parser.getCallbackDefinition"]}
{"id": "C180", "title": "The colours of page marks tell pages apart", "statement": "In the editor, actions of the same page have marks of the same colour, and, as long as there are not more than five pages without own colour, actions of different pages have marks of different colours.", "quantifier": "all lists of actions with their pagers and pages, in any order", "why_tests_cant": "the colours depend on the whole history of marks; tests look at a few", "anchors": ["web/htdocs/js/ui/parser/ParserFrontendIcons.js:ParserFrontendIcons.#getPageColorId", "web/htdocs/js/ui/parser/ParserFrontendIcons.js:ParserFrontendIcons.get"]}
{"id": "C181", "title": "The emulator uses the MIDI channels entered in its communication settings", "statement": "After the user applies the communication settings, and every time the page is opened again, the emulator receives exactly on the input channel entered last since the last reset (on all channels for \"All\" or none), sends on the output channel entered last (channel 1 if none), and the settings show these channels; a text which is no channel is refused; before applying, the running emulator is not changed; reset brings back the defaults.", "quantifier": "all sequences of inputs, resets, applies and page loads; all texts; all stored data", "why_tests_cant": "must hold after every history of inputs and resets and for every text in a free input", "anchors": ["web/htdocs/js/ui/misc/EmulatorSettings.js:EmulatorSettings.#getCommSettings", "web/htdocs/js/ui/misc/EmulatorSettings.js:EmulatorSettings.#setCommFromInput", "web/htdocs/js/model/CommunicationSettings.js:CommunicationSettings", "web/htdocs/python/PySwitchRunner.py:PySwitchRunner._init_default", "web/htdocs/python/adafruit_midi/__init__.py:MIDI.in_channel"]}
{"id": "C182", "title": "The trees of examples and templates offer exactly what is there", "statement": "Whatever folders there are on the server, the user gets by choosing names one after another in the tree of examples to an entry which opens an example exactly if these names lead to a folder without subfolders and none of them is one of the left out ones (MIDI Routings, Multiboot); selecting it opens exactly this folder (for names without #, ? and +); names in one list are different; the default configuration is offered at the top only. The same for templates, of which none is left out.", "quantifier": "all trees of folders and files, all paths", "why_tests_cant": "must hold for every tree of folders, of any depth", "anchors": ["web/htdocs/js/ui/examples/ExamplesProvider.js:ExamplesProvider.getToc", "web/htdocs/js/ui/examples/TemplatesProvider.js:TemplatesProvider.getToc", "examples/toc.php:fillArrayWithFileNodes"]}
{"id": "C183", "title": "The trees of examples and templates have no dead ends", "statement": "Each entry which is shown in the trees of examples and templates can be selected or leads to one which can be selected.", "quantifier": "all trees of folders and files, all entries", "why_tests_cant": "must hold for every tree of folders, of any depth", "anchors": ["web/htdocs/js/ui/examples/ExamplesProvider.js:ExamplesProvider.getToc", "web/htdocs/js/ui/examples/TemplatesProvider.js:TemplatesProvider.getToc", "web/htdocs/js/ui/popups/BrowserPopup.js:BrowserPopup.browse"]}
{"id": "C184", "title": "The virtual device shows the messages and rates of the last measurement", "statement": "With each measurement, the lists of messages which the virtual device shows are exactly the messages received and sent since the measurement before, in their order, and the shown rates are the numbers of messages per second in this time.", "quantifier": "all sequences of messages and measurements, all times between measurements", "why_tests_cant": "must hold for every history of messages and for every delay of the timer", "anchors": ["web/htdocs/clients/kemper/virtual/VirtualKemperStats.js:VirtualKemperStats", "web/htdocs/clients/kemper/virtual/VirtualKemperClientUI.js:VirtualKemperClientUI"]}
{"id": "C185", "title": "The dialog for actions offers the actions for the hardware and edits the right one", "statement": "The dialog for adding and editing the actions of an input offers exactly the actions of the catalogue which are for its type of hardware; when an action is edited, the dialog shows the properties of this action with its values, and applying gives this action again; if the action is not in the catalogue, the dialog says so and applying does nothing; when an action is added, the selected one is added.", "quantifier": "all catalogues, types of hardware, edited actions and sequences of selections", "why_tests_cant": "must hold for every catalogue and every action in a configuration, also unknown ones", "anchors": ["web/htdocs/js/ui/parser/ActionsProvider.js:ActionsProvider.getToc", "web/htdocs/js/ui/parser/ParserFrontendInput.js:ParserFrontendInput.#promptAction", "web/htdocs/js/ui/parser/ActionProperties.js:ActionProperties.setArguments"]}
{"id": "C186", "title": "The web application shows the device the configuration is for", "statement": "If a configuration imports the inputs of one of the supported devices, the web application shows this device; if it mentions none, it shows the MIDI Captain 10.", "quantifier": "all configurations, as lists of lines of any text, and all devices", "why_tests_cant": "must hold for every text around the import", "anchors": ["web/htdocs/js/model/Device.js:Device.getInstance"]}
{"id": "C187", "title": "The preview of the display fits into its area", "statement": "The preview of the display in the display editor never leaves the area it is in, fills it in at least one direction, and is not distorted.", "quantifier": "all sizes of displays and of areas", "why_tests_cant": "must hold for all sizes of the window", "anchors": ["web/htdocs/js/ui/editors/display/DisplayPreview.js:DisplayPreview.#determineScaleFactor"]}
{"id": "C188", "title": "The editor offers the colours which are defined in the source", "statement": "The colours the editor offers are exactly the public attributes of the class of colours in the source of PySwitch, with their values and in their order; everything else in the file is ignored. The functions extracted from a class are its methods, by the names they are called with.", "quantifier": "all source files, as trees of statements of any depth", "why_tests_cant": "must hold for every file around the class and every content of the class", "anchors": ["web/htdocs/python/parser/misc/ClassItemExtractor.py:ClassItemExtractor.get", "web/htdocs/js/model/parser/Parser.js:Parser.getAvailableColors"]}
{"id": "C189", "title": "The editor offers exactly the calls of the mappings which exist", "statement": "For parameters which are mappings, the editor offers exactly the calls of the mappings of all clients with the values their first parameter allows, in alphabetical order, and None only where it makes sense; it fails only if a parameter has no values at all.", "quantifier": "all lists of clients, mappings, parameters and values", "why_tests_cant": "must hold for every catalogue of mappings", "anchors": ["web/htdocs/js/model/parser/MappingOptions.js:MappingOptions.generate"]}
{"id": "C190", "title": "Functions and parameters get the meta information which is written for them", "statement": "In the catalogues of the editor, a parameter has the meta information which the file of meta information has for this parameter of this function of this client, and else the default of the client for parameters of this name; a function has the information for this function of this client. What the file says about other clients has no influence.", "quantifier": "all files of meta information in which no function of a client and no parameter of a function is described twice, all clients, functions and parameters", "why_tests_cant": "must hold for every file and every catalogue", "anchors": ["web/htdocs/js/model/parser/Parser.js:Parser.#mixInMetaInformation"]}
{"id": "C191", "title": "The connection button shows the state of the connection", "statement": "The button for the client always has exactly one of its three looks, and with each update it shows the true state: not connected without MIDI, connected if the emulator is running without protocol or with a connected protocol, waiting otherwise.", "quantifier": "all histories of connecting and disconnecting MIDI, ticks, failures and stops of the emulator, and updates of the button", "why_tests_cant": "must hold for every order of events", "anchors": ["web/htdocs/js/ui/misc/ClientConnectionButton.js:ClientConnectionButton.#getCurrentState", "web/htdocs/python/PySwitchRunner.py:PySwitchRunner.tick"]}
{"id": "C192", "title": "The actions of an input are shown one below the other", "statement": "In the editor, the actions of an input are laid out inside of their list, in their order, without overlapping, and the list is exactly as high as its actions with their margins and as wide as the widest of them.", "quantifier": "all lists of items with any sizes and margins", "why_tests_cant": "must hold for any number of actions of any size", "anchors": ["web/htdocs/js/ui/parser/ParserFrontendInput.js:ParserFrontendInput.#initGrid (layout)"]}
{"id": "C193", "title": "The editor shows exactly the inputs of the device", "statement": "The configuration editor lists every input which the module of the device describes, each once, with its class, its (first) port and a title; for the shipped devices all titles differ, and asking for the name of an input gives the constant of this input.", "quantifier": "all modules (attributes in any order), and all the shipped devices", "why_tests_cant": "must hold for every module and every order of its attributes", "anchors": ["web/htdocs/python/parser/PySwitchHardware.py:PySwitchHardware.get", "web/htdocs/python/parser/PySwitchHardware.py:PySwitchHardware._display_name", "web/htdocs/js/model/parser/Parser.js:Parser.input"]}
{"id": "C194", "title": "Elements follow the pointer in the preview of the display editor", "statement": "Dragging an element moves it by the sum of the movements of the pointer, in pixels of the display, however they are divided into events, and keeps its size; resizing does not move it and only depends on the last position of the pointer; an element is never smaller than one pixel.", "quantifier": "all scales, all elements, all sequences of events", "why_tests_cant": "must hold for every sequence of movements", "anchors": ["web/htdocs/js/ui/editors/display/DisplayNodePreviewDrag.js:DisplayNodePreviewDrag.init", "web/htdocs/js/ui/editors/display/DisplayNode.js:DisplayNode.setModelBounds"]}
{"id": "C195", "title": "Several versions of the emulator on one web server", "statement": "All folders of the web root except those starting with 'versions' are listed, the newest first; with the rules written for them, a request which is not meant for the versions page or for a version gets the file of the newest version, a file of a version which is called directly is served as it is, the rules never go round in circles, and each link of the versions page leads to its version.", "quantifier": "all contents of the web root, all requests", "why_tests_cant": "must hold for every set of folders and every path", "anchors": ["web/publish-helper/htdocs/versions/src/PySwitchVersions.php:PySwitchVersions.get", "web/publish-helper/htdocs/versions/src/PySwitchUpdater.php:PySwitchUpdater", "web/publish-helper/htdocs/versions/index.php"]}
{"id": "C196", "title": "The editor knows the actions of the configuration", "statement": "For every action the editor offers, a call of it in the source code is recognized by the import statement which the editor writes: the definition which is found is the one of this action, whatever else is imported and in whatever order the clients are listed. In general, the client of a name is the one in the module it is imported from; names which are not imported from a client are local.", "quantifier": "all files of configurations (lists of import statements), all orders of the clients, all actions of the catalogue", "why_tests_cant": "must hold for every surrounding file and every order of folders", "anchors": ["web/htdocs/python/parser/PySwitchParser.py:PySwitchParser.determine_client", "web/htdocs/python/parser/misc/ImportExtractor.py:ImportExtractor", "web/htdocs/js/ui/parser/ParserFrontendInput.js:ParserFrontendInput.#getActionDefinition", "web/htdocs/definitions/actions.json"]}
{"id": "C197", "title": "Icons of actions tell what they use", "statement": "In the list of actions of an input, the icon for LEDs is shown exactly for the actions which use the LEDs, the icon for displays exactly for the actions with a display (and names it), the icon of a page exactly for the actions on this page of this pager, the icon for callbacks exactly for the actions which are enabled by something else, and the icon for variables exactly for the actions which are defined as one.", "quantifier": "all calls of actions which Python accepts, all definitions of actions", "why_tests_cant": "must hold for every combination of arguments and defaults", "anchors": ["web/htdocs/js/ui/parser/ParserFrontendIcons.js:ParserFrontendIcons.get", "web/htdocs/js/ui/parser/ParserFrontendIcons.js:ParserFrontendIcons.#usesLeds", "web/htdocs/js/model/parser/ParserInputAction.js:ParserInputAction.pager", "web/htdocs/js/ui/parser/ParserFrontendInput.js:ParserFrontendInput.#initDom"]}
{"id": "C198", "title": "Marks of pages have the colours of the pages", "statement": "In the list of actions, the mark of an action on a page has the colour which the pager gives to this page, given by a name of the firmware or as a tuple, on whatever input the pager is assigned, for pressing or for holding. Pages without colour get one of the numbered marks.", "quantifier": "all configurations of all inputs, all pagers and pages with different ids, all colours", "why_tests_cant": "must hold for every position of the pager in the configuration and every colour", "anchors": ["web/htdocs/js/ui/parser/ParserFrontendIcons.js:ParserFrontendIcons.getPageColor", "web/htdocs/js/model/parser/Parser.js:Parser.getPagerAction", "web/htdocs/js/model/parser/Parser.js:Parser.actions", "web/htdocs/js/model/parser/Parser.js:Parser.resolveColor"]}
{"id": "C199", "title": "The emulator runs the client of the configuration", "statement": "A configuration which imports from the modules of a client is run with this client: its protocol, the search for its devices and its virtual device. Each configuration has a client, whatever is in the file.", "quantifier": "all files of inputs, all actions of the catalogue", "why_tests_cant": "must hold for every text of the file", "anchors": ["web/htdocs/clients/ClientFactory.js:ClientFactory.estimateClient", "web/htdocs/clients/ClientFactory.js:ClientFactory.getInstance", "web/htdocs/js/ClientController.js:ClientController.#connect", "web/htdocs/js/PySwitchRunner.js:PySwitchRunner.run"]}
{"id": "C200", "title": "The display editor shows the bounds of the device", "statement": "For each display element, the position and size which the display editor reads from the source code are those which the device uses, for arguments given by position or by name or left out, written as numbers, constants, or variables which are defined by means of each other.", "quantifier": "all files, all calls of DisplayBounds which Python accepts with whole numbers, all depths of variables up to the recursion limit", "why_tests_cant": "must hold for every combination of arguments and every chain of variables", "anchors": ["web/htdocs/js/ui/editors/display/DisplayNode.js:DisplayNode.getModelBounds", "web/htdocs/js/model/parser/Resolver.js:Resolver.resolve", "web/htdocs/python/parser/SplashesExtractor.py:SplashesExtractor.get_arg_names", "web/htdocs/python/parser/misc/CodeExtractor.py:CodeExtractor._parse_node", "content/lib/pyswitch/ui/ui.py:DisplayBounds"]}
{"id": "C201", "title": "The functions and classes the editor knows are those of the library", "statement": "When the definitions for the editor are made, the functions of a folder of the library are exactly the public functions on module level of its modules (files with ending .py not beginning with two underscores, at any depth), in order, each with its parameters, defaults, comments and the name of the module to import from; the classes are exactly the public classes on module level with their bases. For a folder which does not exist the lists are empty.", "quantifier": "all tables of contents of any depth, all sources", "why_tests_cant": "must hold for folders of any depth and every source", "anchors": ["web/htdocs/js/model/parser/FunctionExtractor.js:FunctionExtractor.get", "web/htdocs/js/model/parser/ClassNamesExtractor.js:ClassNamesExtractor.get", "web/htdocs/python/parser/misc/FunctionExtractor.py:FunctionExtractor.get", "web/htdocs/python/parser/misc/ClassNameExtractor.py:ClassNameExtractor.get", "web/htdocs/python/parser/misc/CollectCommentsTransformer.py:CollectCommentsTransformer.on_visit"]}
{"id": "C202", "title": "The controls of the emulated device show and set its state", "statement": "Whatever messages arrive and whatever the user clicks and types, each checkbox of the emulated device shows whether the effect, the tuner or the morphing is on, a click switches it, the tuner note shown is the current one, and typing the name of a note sets the tuner to that note.", "quantifier": "all histories of messages and clicks, all notes in all octaves, all names of notes", "why_tests_cant": "must hold after every history of messages and clicks", "anchors": ["web/htdocs/clients/kemper/virtual/VirtualKemperClientUI.js:VirtualKemperClientUI", "web/htdocs/clients/kemper/virtual/VirtualKemperParameter.js:VirtualKemperParameter.setValue", "web/htdocs/clients/kemper/virtual/VirtualKemperMorph.js:VirtualKemperMorph"]}
{"id": "C203", "title": "The name of an action tells its parameter and direction", "statement": "The name shown for an action on a parameter of the client (pedal, encoder, switch, up/down) is the readable name of its mapping, so actions on different parameters have different names; up/down actions show the direction of their offset; effect actions name their slot, and the fixed effects have different names.", "quantifier": "all names of mappings, all arguments of mappings, all offsets, all slots of the library", "why_tests_cant": "must hold for every mapping, every argument text and every offset", "anchors": ["web/htdocs/js/model/parser/FunctionMeta.js:FunctionMeta.getShortDisplayName", "web/htdocs/js/model/parser/FunctionMeta.js:FunctionMeta.underscoreToDisplayName", "web/htdocs/clients/kemper/KemperFunctionMeta.js:KemperFunctionMeta.getShortDisplayName"]}
{"id": "C204", "title": "The MIDI monitor names messages after their parameters", "statement": "In the MIDI monitor, a message which the emulated device takes for a parameter has the name of this parameter and the value the device gets; a message by which the device tells a parameter has its name and value; protocol messages are shown as such; other control and program changes are shown with channel, controller and value; different messages are written with different bytes, decimal and hexadecimal. Messages which are not the same have different names, so ignoring one does not hide another.", "quantifier": "all lists of parameters with any keys and values, all messages, both number formats", "why_tests_cant": "must hold for every message and every set of parameters", "anchors": ["web/htdocs/js/ui/misc/MidiMonitor.js:MidiMonitor.addMessage", "web/htdocs/clients/kemper/virtual/VirtualKemperClient.js:VirtualKemperClient.getMessageProperties", "web/htdocs/clients/kemper/virtual/VirtualKemperParameter.js:VirtualKemperParameter.parseSendMessage", "web/htdocs/clients/kemper/virtual/VirtualKemperProtocol.js:VirtualKemperProtocol.getMessageProperties"]}
{"id": "C205", "title": "The order of the actions to choose from", "statement": "The dialog for choosing an action lists exactly the available actions: first those for the Kemper, by categories in a fixed order (rig and bank actions by name), then those for the Boomerang, then the general ones, where the ones for any parameter, keyboard, messages and pagers are at the end in a fixed order; actions which compare equal stay in the order of their definition.", "quantifier": "all lists of actions with any names, every comparison of texts which respects the alphabet", "why_tests_cant": "must hold for every list of actions, in every order of definition", "anchors": ["web/htdocs/js/ui/parser/ActionsProvider.js:ActionsProvider.getToc", "web/htdocs/js/model/parser/FunctionMeta.js:FunctionMeta.getSortString", "web/htdocs/clients/kemper/KemperFunctionMeta.js:KemperFunctionMeta.getSortString", "web/htdocs/js/ui/popups/BrowserPopup.js:BrowserPopup.browse"]}
{"id": "C206", "title": "The names of actions for keys and custom messages", "statement": "An action which sends keys of a keyboard shows the names of its keys, in order and however they are written in the code (one key, list, tuple), so actions for different keys have different names; an action for a custom message shows its text; without keys or text, it shows what kind of action it is.", "quantifier": "all lists of names of keys, all three ways to write them, all texts", "why_tests_cant": "must hold for every list of keys and every text", "anchors": ["web/htdocs/js/model/parser/FunctionMeta.js:FunctionMeta.getDisplayName", "web/htdocs/js/model/parser/FunctionMeta.js:FunctionMeta.getShortDisplayName", "web/htdocs/js/misc/Tools.js:Tools.stripQuotes"]}
{"id": "C207", "title": "The buttons which assign an action to a page", "statement": "The dialog of an action has a button 'No Page' and one for each page of each pager. A click on the button of a page assigns the action to exactly this page (callback of its pager, id of the page), and a click on 'No Page' takes it off; always exactly those buttons are marked which stand for the page the inputs name. A pager is not offered its own pages, and a proxy not those of its pager, unless it is on the page already; all other pages are offered. The text of a button is the text of the page without quotes, or its id, after the name of the pager if there are several.", "quantifier": "all lists of pagers and pages, all contents of the inputs, all histories of clicks, typed texts and new names, for all kinds of actions", "why_tests_cant": "must hold for every configuration and after every history of the dialog", "anchors": ["web/htdocs/js/ui/parser/PagerProperties.js:PagerProperties.getButtons", "web/htdocs/js/ui/parser/PagerProperties.js:PagerProperties.update", "web/htdocs/js/ui/parser/PagerProperties.js:PagerProperties.pager", "web/htdocs/js/ui/parser/PagerProperties.js:PagerProperties.page"]}
{"id": "C208", "title": "Advanced parameters are shown level by level", "statement": "In the dialog of an action, parameters which are not advanced or have messages are always shown. An advanced parameter is shown exactly if the button was clicked as often as its level says, or if it got a value which is not its default, and it stays shown. The button is there exactly as long as there are levels left, so all parameters are shown when it is gone; it says 'all...' exactly if the next click shows the last level.", "quantifier": "all lists of parameters with all levels, all histories of clicks and values", "why_tests_cant": "must hold for every action of every client, and after every history of the dialog", "anchors": ["web/htdocs/js/ui/parser/ActionProperties.js:ActionProperties.get", "web/htdocs/js/ui/parser/ActionProperties.js:ActionProperties.registerAdvancedParameterRow", "web/htdocs/js/ui/parser/ActionProperties.js:ActionProperties.showParameter"]}
{"id": "C209", "title": "The kinds of proxies of pagers", "statement": "An action `x.f(...)` of the configuration is of the kind `g.f` if the file assigns a call of `g` to the variable `x`: what the search in the tree finds for a variable is exactly what the file assigns to it, wherever it is used in the inputs. Names with no or several dots are no proxies.", "quantifier": "all files, all trees which are read from them, all names of variables and functions", "why_tests_cant": "must hold for every file, with variables used at any depth of the inputs", "anchors": ["web/htdocs/js/model/parser/ParserInputAction.js:ParserInputAction.definitionName", "web/htdocs/js/model/parser/Parser.js:Parser.getAssignment", "web/htdocs/python/parser/misc/CodeExtractor.py:CodeExtractor.get"]}
{"id": "C210", "title": "The rig shown by the emulated device", "statement": "The input for the rig of the emulated Kemper device always contains the active rig of the device: after a rig button, a bank button or a typed number, and also when another device has told the number of the rig.", "quantifier": "all histories of complete MIDI messages, updates and uses of the user interface", "why_tests_cant": "must hold after every history of messages in any order", "anchors": ["web/htdocs/clients/kemper/virtual/VirtualKemperClientUI.js:VirtualKemperClientUI", "web/htdocs/clients/kemper/virtual/VirtualKemperClient.js:VirtualKemperClient.getRigId", "web/htdocs/clients/kemper/virtual/VirtualKemperClient.js:VirtualKemperClient.setRigId"]}
{"id": "C211", "title": "The tempo shown by the emulated device", "statement": "The input for the tempo of the emulated Kemper device always contains its tempo, and the device tells PySwitch the same tempo. A tempo which is typed, told by a message or tapped becomes the tempo of the device; faster ones than 256 BPM become 256.", "quantifier": "all histories of typed numbers, messages for the tempo and taps at any time", "why_tests_cant": "the input and the parameter set each other by callbacks, which must end and agree after every history", "anchors": ["web/htdocs/clients/kemper/virtual/VirtualKemperClientUI.js:VirtualKemperClientUI", "web/htdocs/clients/kemper/virtual/VirtualKemperTempo.js:VirtualKemperTempo.set", "web/htdocs/clients/kemper/virtual/VirtualKemperTempo.js:VirtualKemperTempo.tap", "web/htdocs/clients/kemper/virtual/VirtualKemperClientSetup.js:VirtualKemperClientSetup"]}
{"id": "C212", "title": "The options of the MIDI monitor", "statement": "The buttons of the MIDI monitor always show its options, all rows follow them, and they are kept when the page is loaded again: each click turns an option over. Messages get a row exactly while the monitor runs. The hint to start the monitor is there exactly while it has not been started.", "quantifier": "all histories of clicks, messages, changes of the tab and loading the page", "why_tests_cant": "must hold after every history, across reloads", "anchors": ["web/htdocs/js/ui/misc/MidiMonitor.js:MidiMonitor.constructor", "web/htdocs/js/ui/misc/MidiMonitor.js:MidiMonitor.addMessage", "web/htdocs/js/ui/misc/MidiMonitor.js:MidiMonitor.deactivate", "web/htdocs/js/misc/LocalState.js:LocalState"]}
{"id": "C213", "title": "Messages beside the inputs of the display editor", "statement": "After each check, every input of the display editor shows exactly the messages of the selected element for it, in order, and nothing from before. It is marked as wrong exactly if one of them is an error, and as doubtful exactly if there is a warning but no error.", "quantifier": "all inputs with different names, all lists of messages, all former states", "why_tests_cant": "must hold for every order of messages and every former state", "anchors": ["web/htdocs/js/ui/editors/display/DisplayParameterList.js:DisplayParameterList.check", "web/htdocs/js/ui/misc/ParameterList.js:ParameterList.createInput", "web/htdocs/js/ui/misc/ParameterList.js:ParameterList.getParameter"]}
{"id": "C214", "title": "List of fonts of the display editor", "statement": "The selection of fonts of the display editor offers exactly the fonts of the definition file, each with its file name in quotes as value. Smaller fonts come before larger ones, fonts of the same height keep the order of the file, and each is shown with its file name and its height in pixels.", "quantifier": "all lists of fonts, all families and heights", "why_tests_cant": "must hold for every list of fonts and every name", "anchors": ["web/htdocs/js/model/parser/Parser.js:Parser.getAvailableFonts", "web/htdocs/js/ui/editors/display/types/DisplayLabelTypeLayout.js:DisplayLabelTypeLayout.setupParameters", "web/htdocs/js/ui/editors/display/types/TunerDisplayTypeParameterList.js"]}
