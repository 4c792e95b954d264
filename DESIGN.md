# Formal model of PySwitch in Lean 4

The model is a shallow, function-by-function transcription of the Python code in
`/repo/content/lib/pyswitch` (and of the vendored Python MIDI library in
`/repo/web/htdocs/python/adafruit_midi`) into total Lean functions. Every definition cites the
file and lines it models. Mutable objects become structures, methods become functions
`State -> Input -> State x Effects`, and everything the outside world can observe (MIDI messages
sent, actions called, listeners notified, pixels written) is returned as a list of effects.
Exceptions are values (`Except`). The clock is an input: every function that reads
`get_current_millis()` takes the reading as an argument, so a theorem over all clock sequences is
a theorem over all schedules.

Layout of `lean/Verif`:

* `Model/*.lean`: the model, no proofs.
* `Spec/*.lean`: small specifications which do not mention the model (what "first registration
  order" means, what the device does with a CC message, ...).
* `Lemmas/*.lean`: helper lemmas.
* `Props/*.lean`: the property theorems `Cxx_...`, each with `example`s showing that a concrete,
  non-trivial case meets its hypotheses.

## Trusted base

* Lean 4.33.0's kernel, and the axioms `propext`, `Quot.sound` and `Classical.choice` only
  (`lean/Verif/Axioms.lean` prints the axioms of every property theorem). No `sorry`, no own
  axioms, no `native_decide`, no `bv_decide`.
* The faithfulness of the transcription, which is by reading.

## General modelling decisions

* Python `int` is `Int` (or `Nat` where the code cannot produce negative numbers).
* Python `float` arithmetic is modelled by exact arithmetic. `int(a / b)` for integers `a`, `b`
  is truncation of the exact quotient. CPython doubles give the same result for all values the
  application uses (below 2^26); CircuitPython's 30-bit floats may differ near boundaries. That
  is not modelled.
* `get_current_millis()` is an arbitrary natural number per call; one call in the code is one
  argument in the model (where a function reads the clock several times within one call, the
  model uses one reading per call of the function, unless stated otherwise).
* Object identity is modelled by natural number ids.
* Python's truthiness (`if not msg`) is modelled by `Option`.

## Modelled and not modelled, per file

Paths are relative to `content/lib/pyswitch` if not stated otherwise. "Model" names the files in `lean/Verif/Model`;
the comments in there cite lines and name the simplifications.

| file | model | not modelled |
|---|---|---|
| `controller/client.py` | Mapping, Client, KemperProtocol | debug output; `register` of the whole client hierarchy is flattened |
| `controller/midi.py` | Routing, Wire | – |
| `controller/controller.py` | Loop, Startup, Explore (tick only) | `reset_actions` (160-163), tick statistics output |
| `controller/inputs.py` | Switch, Leds, Wheel, Num, Button, Devices | – |
| `controller/actions/__init__.py` | PushButton, Button | – |
| `controller/actions/AnalogAction.py`, `EncoderAction.py` | Analog, Encoder, Wheel | rounding of floats (rational numbers instead) |
| `controller/callbacks/*` | Binary, Effects, LabelText | – |
| `controller/preview.py`, `measure.py`, `strobe.py`, `explore.py` | Preview, Misc, Tuner, Explore | text layout of the explore display |
| `clients/kemper/__init__.py`, `clients/kemper/mappings/*` | Table, KemperProtocol, LabelText, Tuner | – |
| `clients/kemper/actions/*`, `clients/kemper/callbacks/*` | Rigs, RigDisplay, Effects, EffectButton, Morph, Tempo, Button, Convert, Encoder | – |
| `clients/local/actions/*` | Local, Simple, Button, EncoderButton | – |
| `clients/local/callbacks/splashes.py` | – | all (it returns the object given) |
| `clients/boomerang/actions/boomerang.py` | Boomerang | – |
| `colors.py`, `misc.py`, `stats.py`, `process.py` | Num, Leds, Misc, Stats, Startup | `do_print`, garbage collection |
| `debug_tools.py` | – | all (printing) |
| `ui/*` | Display, Layout, Label, Tuner, Startup | drawing by `displayio`, fonts, text wrapping; array('f') rounding |
| `hardware/adafruit/AdafruitSwitch.py`, `AdafruitDinMidiDevice.py`, `AdafruitUsbMidiDevice.py`, `__init__.py` | Simple, Thru | NeoPixel and display driver set-up |
| `hardware/adafruit/AdafruitEncoder.py`, `AdafruitPotentiometer.py` | – | all (each forwards one attribute of a CircuitPython object) |
| `hardware/devices/*` | Devices | – |
| `content/boot.py`, `display.py`, `inputs.py`, `config.py`, `communication.py` | Startup, DefaultDisplay, Devices, Shipped | `config.py` beyond the options used |
| `content/lib/pymidibridge` | – | shipped compiled only |
| `web/htdocs/python/adafruit_midi` (`__init__`, `midi_message`, `control_change`, `program_change`, `system_exclusive`) | Wire | the other message classes (see `Model/MidiTypes`) |
| `web/htdocs/python/parser/PySwitchParser.py`, `misc/*Transformer.py`, `CodeExtractor.py`, `CodeGenerator.py`, `Assignment*Extractor.py`, `SplashesExtractor.py` | Editor, Imports | `libcst` itself, whitespace and comments |
| `web/htdocs/python/parser/misc/ClassName*Extractor.py`, `FunctionExtractor.py`, `CollectCommentsTransformer.py`, with the JavaScript adapters of the same names | `Model/Extractors.lean` (C201) | which comments libcst assigns to which statement; JSON |
| `web/htdocs/python/wrappers/*`, `mocks.py` | – | all but the next rows |
| `web/htdocs/python/wrappers/wrap_adafruit_midi.py`, `web/htdocs/js/midi/PythonMidiWrapper.js` | MIDI input (`EmulatorMidi`, C143) | output, monitor |
| `web/htdocs/python/PySwitchRunner.py`, `web/htdocs/js/PySwitchRunner.js` | run, stop, ticks (`Runner`, C144) | wiring of the emulated hardware, loading Pyodide, coverage |
| `web/htdocs/clients/kemper/virtual/VirtualKemperProtocol.js`, `VirtualKemperParameter*.js`, `VirtualKemperClient.js`, `VirtualKemperClientSetup.js`, `VirtualKemperTuner.js`, `VirtualKemperTempo.js`, `VirtualKemperMorph.js`, `js/misc/PeriodCounter.js` | Virtual, VirtualParams, VirtualSetup, VirtualMachine | MIDI clock, statistics |
| `web/htdocs/js/model/parser/ParserInput.js`, `ParserInputAction.js`, `ParserTreeElement.js`, `Parser.js` (`inputData`, `updateConfig`) | `Model/EditorInput` | ids of actions, action definitions (meta data), the other functions of `Parser.js` |
| `web/htdocs/js/model/parser/ParserChecks.js` | `Model/Checks` | buffers, texts of messages |
| `web/htdocs/js/routing/CallbackQueue.js` | `Model/CallbackQueue` | – |
| `web/htdocs/lib/jsmidibridge/JsMidiBridge.js` | `Model/Bridge` | log output, overlapping of awaited calls, callbacks which throw |
| `web/htdocs/js/midi/MidiBridgeHandler.js` (`sendSysex`, `listenTo`, chunk sizes) | `Model/Bridge`, `Model/DeviceController` | `connect` (timeouts, attempts), `detach` |
| `web/htdocs/js/DeviceController.js` (`loadFile`, `saveFile`) | `Model/DeviceController` | `scan`, `connect`, `saveConfig`, progress display |
| `web/htdocs/js/ui/editors/display/*.js`, `types/*.js` there | `Model/DisplayEditor` | rendering, preview sizes, selection marks, search for callbacks; numbers only as bounds |
| `web/htdocs/js/model/configurations/*.js`, `model/Presets.js`, `ui/editors/CodeEditor.js`, `ui/misc/Upload.js`, `ui/localfolder/*.js`, `ui/presets/*.js`, `Controller.js` (`loadConfiguration`, `restart`), `ui/PySwitchUI.js` (dialogs for loading and saving, `confirmIfDirty`) | `Model/Workspace` | the contents of the dialogs, progress display, interleaving of several events while one is in progress |
| `web/htdocs/js/routing/Routing.js`, `Controller.js` (`getControllerUrl`), `lib/sammy-latest.min.js` (`routablePath`, `lookupRoute`, `_decode`) | `Model/Links` | query parameters, unpaired surrogates |
| `web/htdocs/js/model/ConfigFile.js`, `web/htdocs/templates/config-template.py`, `web/htdocs/js/ui/misc/EmulatorSettings.js` (config.py part) | `Model/Settings` | texts of numbers, comments in the template, communication settings, display of the dialog |
| `web/htdocs/js/ui/parser/ActionProperties.js`, `ActionPropertiesInternal.js`, `ActionPropertiesEncoder.js`, `PagerProperties.js`, `PagesList.js`, `web/htdocs/js/model/parser/ParameterMeta.js`, `ParameterRange.js`, `web/htdocs/js/misc/Tools.js` (quotes) | `Model/Properties` | what is only shown (comments, messages, order of rows, colour inputs, page buttons), `MappingOptions`, key codes (lists of values are given) |
| `web/htdocs/js/ui/parser/ParserFrontendInput.js` (lists of actions: `addAction`, `replaceAction`, `removeAction`, `updateInput`, dragging), `ParserFrontend.js` (`scheduleForUpdate`, `updateConfig`), `PySwitchFrontend.js` (`apply`), `Controller.js` (`restart`) | `Model/FrontendLists`, `Model/ActionGrid` (C192, layout) | texts, icons, the library Muuri, general settings of inputs, the emulated device; a restart is one step |
| `web/htdocs/js/midi/MidiHandler.js` (`scan`, `getMatchingPortPairs`, `getPortPair`), `MidiBridgeHandler.js` (`connect`), `ClientController.js` (`#scan`, `#scanPort`), `DeviceController.js` (`scan`) | `Model/PortScan` | exceptions while sending, several searches at the same time, the request which is sent; the steps after an answer or timeout are one step |
| `web/htdocs/js/ui/misc/MidiMonitor.js` | `Model/Monitor` | texts of bytes and values, buttons for them, scrolling; names of messages are given |
| `web/htdocs/js/DeviceController.js` (connect), `web/htdocs/js/midi/MidiBridgeHandler.js` (connect, detach), `web/htdocs/js/midi/MidiHandler.js` (listeners) | connections and listeners (`Connections`, C146) | progress display, `saveConfig` beyond its calls |
| `web/htdocs/js/ui/PySwitchFrontend.js` (inputs), `web/htdocs/js/ui/misc/WcRotationInput.js`, `web/htdocs/python/wrappers/wrap_io.py` | `Model/EmulatorInputs` (C147) | drawing of the knob, board pins |
| `web/htdocs/python/wrappers/wrap_adafruit_display.py`, `WrapDisplayDriver.py`, `wrap_adafruit_led.py` | `Model/EmulatorDisplay` (C148) | fonts, widths of texts, pixels of texts, `scale` of groups (not used by `render`), LEDs without an element |
| `web/htdocs/js/ClientController.js` (`init`, `#connect`), `PySwitchRunner.js` (`setMidiWrapper`), `midi/PythonMidiWrapper.js`, `ui/PySwitchUI.js` (`showVirtualClient`, client browser) | `Model/Clients` (C149) | messages on the screen, the course of a search (see `Model/PortScan`), sending |
| `web/htdocs/python/adafruit_midi/*` (all message types, `note_parser`) | `Model/MidiTypes` (C150) | `__str__`, blanks and underscores in names of notes, `control_change_values.py` |
| `web/htdocs/js/model/configurations/*.js` (`save`, `doSave`) and `DeviceController.saveConfig` as interleaved steps | `Model/Saving` (C153, C154) | several savings to a controller at the same time, "save as" (one step in `Model/Workspace`) |
| `web/htdocs/js/misc/Tools.js` (colours), `Parser.js:347-376`, colour inputs in `ActionProperties.js:532-580` and `ParameterList.js:267-321` | `Model/Colours` (C155) | extraction of the known colours from `colors.py` (a table here) |
| `web/htdocs/js/ui/tabs/*.js` | `Model/Tabs` (C156, C157) | width of the panel, buttons, refreshing of editors |
| `web/htdocs/js/ui/popups/BrowserPopup.js`, `BrowserEntry.js` | `Model/Browser` (C158, C159) | drawing, buttons, info panel, exceptions in callbacks, marking of the selected value |
| `web/htdocs/clients/kemper/KemperClientDetector.js`, with `ClientController.js` (`#scanPort`) | `Model/Detector` (C160), with the search of `Model/PortScan` | exceptions when sending, an answer which arrives before the sending has been completed |
| The rig and bank actions together with the virtual Kemper | `Model/RigButtons.lean`: a panel of the actions of `Model/Rigs.lean` with shared data, connected to the device of `Model/VirtualSetup.lean` | Buttons with preselection held at the same time; the time until the rig is reported (all actions get it after each push and release) |
| `web/htdocs/js/model/parser/Parser.js` (`init`, `reset`, `updateConfig`, `updateFromSource`, `updateFromData`, `setSplashes`), `web/htdocs/python/parser/PySwitchParser.py` (`from_source`, `to_source`) with `Controller.js` (`restart`) | `Model/ParserSync` (C164, C165): the parsed files, trees and hardware kept between events, and exceptions on the way | parsing, printing and generating code (given, see `Model/Editor`); exceptions when the trees are searched; the buffers for definitions and hardware |
| `web/htdocs/clients/kemper/KemperFunctionMeta.js`, `web/htdocs/js/model/parser/FunctionMeta.js` | `Model/ActionNames` (names of rig and bank actions, tokens, arguments) | names of other actions, prefix of the client, sort strings, categories |
| `web/htdocs/js/ui/parser/InputSettings.js`, `ParserInput.js` (hold options) | `Model/InputSettings.lean` (dialog, handles, restarts) | values which are not simple source code, look of the dialog |
| `content/lib/pyswitch/controller/inputs.py`, `controller.py` (`reset_actions`) with `pager.py`, `pager_direct.py` | `Model/Paged.lean` (switches with actions of pages, asked one after the other) | displays, override actions, several pagers |
| `web/htdocs/js/ui/popups/Popup.js` | `Model/Popup.lean` (visibility, handlers at the window, timers, callbacks) | contents, buttons (their code is the event `hide`), error handling |
| `content/lib/pyswitch/controller/inputs.py` (`ContinuousController`), several `EncoderAction`s on one wheel | `Model/WheelPages.lean`: which actions are processed, the clients of shared preview displays, encoder buttons with several encoders | the model of the hardware input; pedals (`AnalogAction`) on the same input; the flattening of the action list (see C77) |
| `web/htdocs/js/ui/misc/Notifications.js`, `web/htdocs/js/ui/PySwitchUI.js` (`message`, `reset`), `web/htdocs/js/Controller.js` (`handle`), `web/htdocs/js/DeviceController.js` (error handlers) | `Model/Notifications.lean` (message elements, their times, the text visible for HTML code, errors of the device) | progress bar, console, fading animation, character references, click callbacks |
| `web/htdocs/js/ui/misc/PortsProvider.js`, `web/htdocs/js/midi/MidiHandler.js` (`init`, `#initReceive`) | `Model/Ports.lean` (lists which are filled once, callbacks of the inputs) | listeners by themselves (see `Model/Connections`), failing MIDI access |
| `web/htdocs/js/model/parser/Parser.js` (`getAvailableActions`, `getAvailableCallbacks`, `getAvailableMappings`, the schedule of `#mixInMetaInformation`) | `Model/Catalogue.lean` (callers, the kept catalogue, its meta information client by client) | contents of the catalogues |
| `web/htdocs/js/ui/editors/display/DisplayCallbackParameterList.js`, `web/htdocs/js/ui/misc/ParameterList.js:399-427` | `Model/CallbackParams.lean` (C177) | arguments which are not texts, messages |
| `web/htdocs/js/ui/editors/display/types/TunerDisplayTypeParameterList.js`, `DisplayNode.js:497-524` | `Model/TunerSettings.lean` (C178) | the list of mappings (`MappingOptions.js`), fractions in the scale |
| `web/htdocs/js/ui/editors/display/types/DisplayLabelTypeParameterList.js` (callback) | `Model/LabelCallback.lean` (C179) | rebuilding of the dialog |
| `web/htdocs/js/ui/parser/ParserFrontendIcons.js` (`#getPageColorId`) | `Model/PageIcons.lean` (C180) | other icons |
| `web/htdocs/js/model/CommunicationSettings.js`, `web/htdocs/js/ui/misc/EmulatorSettings.js` (communication), `web/htdocs/python/PySwitchRunner.py:111-123` | `Model/CommSettings.lean` (C181) | numbers beyond the precision of JavaScript, the timer of the restart, explore mode |
| `web/htdocs/js/ui/examples/*.js`, `examples/toc.php`, `web/htdocs/templates/toc.php` | `Model/Examples.lean` (C182, C183) | columns of the list, README icon |
| `web/htdocs/clients/kemper/virtual/VirtualKemperStats.js` | `Model/TrafficRate.lean` (C184) | texts |
| `web/htdocs/js/ui/parser/ActionsProvider.js`, `ParserFrontendInput.js` (dialog for actions) | `Model/ActionChooser.lean` (C185) | order of the list, pager proxies, names of clients |
| `web/htdocs/js/model/Device.js`, `web/htdocs/js/ui/editors/display/DisplayPreview.js` | `Model/DeviceType.lean` (C186, C187) | DOM, observers of sizes, floating point rounding |
| `web/htdocs/python/parser/misc/ClassItemExtractor.py` | `Model/ClassItems.lean` (C188) | parameters and comments of the items, parsing of the source |
| `web/htdocs/js/model/parser/MappingOptions.js` | `Model/MappingOptions.lean` (C189) | the catalogue of mappings itself (see C176), UTF-16 order |
| `web/htdocs/js/model/parser/Parser.js` (contents of `#mixInMetaInformation`) | `Model/MetaLookup.lean` (C190) | the objects made of the definitions, the contents of definitions |
| `web/htdocs/js/ui/misc/ClientConnectionButton.js` | `Model/ConnectionButton.lean` (C191) | clicks, intervals |
| `web/htdocs/python/parser/PySwitchHardware.py`, `Parser.js` (`input`: name to constant) | `Model/HardwareList.lean` (C193) | the import itself and its patches |
| `web/htdocs/js/ui/editors/display/DisplayNodePreviewDrag.js` | `Model/DragPreview.lean` (C194) | the library (snapping, restrictions, inertia) |
| `web/publish-helper/htdocs/versions/` (`index.php`, `src/PySwitchVersions.php`, `src/PySwitchUpdater.php`) | `Model/Versions.lean` (C195); the rules as documented for the web server | writing the files, checking out versions (`create`), names with special characters |
| `web/htdocs/python/parser/misc/ImportExtractor.py`, `PySwitchParser.py:363-380`, `ParserFrontendInput.js:44-72` | `Model/ActionClient.lean` (C196), with the shipped catalogue of actions | the texts (C166) |
| `web/htdocs/js/ui/parser/ParserFrontendIcons.js:18-73, 108-134`, `ParserInputAction.js:28-116` | `Model/ActionIcons.lean` (C197) | markup and colours of the icons |
| `web/htdocs/js/ui/parser/ParserFrontendIcons.js:43-55, 75-91`, `Parser.js:309-342` | `Model/PageColour.lean` (C198) | how the browser draws the colour |
| `web/htdocs/clients/ClientFactory.js`, `ClientController.js:55-58, 86-89, 141-144`, `PySwitchRunner.js:396` | `Model/EstimateClient.lean` (C199) | the protocols and detectors themselves (C160 and others) |
| `web/htdocs/js/model/parser/Resolver.js`, `DisplayNode.js:227-245`, with `CodeExtractor.py` and `SplashesExtractor.py` | `Model/ShownBounds.lean` (C200), on the parser of `Model/Editor.lean` | lists in place of numbers |
| `web/htdocs/clients/kemper/virtual/VirtualKemperClientUI.js:31-96, 186-198, 282-425` | `Model/VirtualPanel.lean` (C202) | the inputs for rig, amp name and generated parameters, layout |
| `web/htdocs/js/model/parser/FunctionMeta.js:73-96, 141-196`, `KemperFunctionMeta.js:151-228` | `Model/MappingNames.lean` (C203) | keyboard and custom messages; code with line breaks |
| `web/htdocs/js/ui/misc/MidiMonitor.js:463-501`, `web/htdocs/clients/kemper/virtual/VirtualKemperClient.js:52-73, 243-302`, `VirtualKemperParameters.js:13-32`, `VirtualKemperParameter.js:259-295` | `Model/MessageNames.lean` (C204) | several virtual clients; the options which override function codes |
| `web/htdocs/js/ui/parser/ActionsProvider.js:57-72`, `FunctionMeta.js:16-18, 54-68`, `KemperFunctionMeta.js:42-55`, `BoomerangClient.js:23-25` | `Model/ActionOrder.lean` (C205) | the collation of the browser is a parameter with stated properties |
| `web/htdocs/js/model/parser/FunctionMeta.js:198-246` | `Model/KeyNames.lean` (C206) | - |
| `web/htdocs/js/ui/parser/PagerProperties.js:51-92, 160-185, 229-327` | `Model/PageButtons.lean` (C207) | colours of the buttons (see `Model/PageColour.lean`) |
| `web/htdocs/js/ui/parser/ActionProperties.js:99-132, 188-252, 389-397` | `Model/AdvancedRows.lean` (C208) | - |
| `web/htdocs/js/model/parser/Parser.js:100-121`, `ParserInputAction.js:28-41` | `Model/ProxyNames.lean` (C209) | - |
| `web/htdocs/clients/kemper/virtual/VirtualKemperClientUI.js:140-153, 241-255` | `Model/RigInput.lean` (C210) | Input texts which are no numbers from 0 on |
| `web/htdocs/clients/kemper/virtual/VirtualKemperClientUI.js:155-170, 257-260`, `VirtualKemperTempo.js`, `VirtualKemperClientSetup.js:111-130` | `Model/TempoInput.lean` (C211) | Negative numbers, rounding of fractions of the browser |
| `web/htdocs/js/ui/misc/MidiMonitor.js:26-146, 219-233, 256-318, 506-508` | `Model/MonitorOptions.lean` (C212) | Texts of rows (C204), limit of rows and ignored messages (`Model/Monitor.lean`) |
| `web/htdocs/js/ui/editors/display/DisplayParameterList.js:61-71`, `misc/ParameterList.js:192-225, 372-395` | `Model/InputMarks.lean` (C213) | - |
| `web/htdocs/js/model/parser/Parser.js:403-414`, `ui/editors/display/types/DisplayLabelTypeLayout.js:18-33`, `TunerDisplayTypeParameterList.js:159-170`, `definitions/fonts.json` | `Model/FontList.lean` (C214) | the buffer of the list, the sort of the browser (a stable insertion sort here) |
| `content/lib/pymidibridge/*.mpy` | not modelled (compiled only) | – |
| all other JavaScript and PHP of the web editor | – | all |

## Plan per property

One line each: module(s), what is modelled, how it is proved.

| id | model | proof |
|----|-------|-------|
| C01 | `Model/Misc`: `PeriodCounter.reset/exceeded` | induction over event lists (poll/reset with clock), spacing via last-firing invariant |
| C02 | `Model/Misc`: `Updater` | induction; refinement to `Spec.firstOccurrences` |
| C03 | `Model/Misc`: `EventEmitter` | as C02 |
| C04 | `Model/Wire`: serialise + `from_message_bytes` index by index | induction over payload, case split over message kinds |
| C05 | `Model/Wire`: `MIDI.receive` | induction over message list on top of C04 |
| C06 | `Model/Wire` | chunked reads: positive part for channel messages (`_partial`), negation with witness for SysEx |
| C07 | `Model/Routing`: `MidiController.send` | induction over sends |
| C08 | `Model/Routing`: `__process_external_routings` | induction over polls; per-target trace equals filtered source queue |
| C09 | `Model/Routing`: `receive` | induction over polls |
| C10 | `Model/Loop`: `__receive_midi_messages`, `tick` | loop by fuel = budget, exact count |
| C11 | `Model/Loop`: `init` | recursion on the (finite) backlog |
| C12-C15 | `Model/Switch`: `SwitchController.process` with clock | induction over sample lists, state invariants |
| C16-C18 | `Model/Mapping`: `set_value`, `parse_against` | arithmetic, list lemmas |
| C19 | `Model/Mapping`: two-part parse | refinement to a history specification |
| C20 | `Model/Mapping`: `get` with store | induction over get histories |
| C21-C25 | `Model/Client`: requests, listeners, dependency listeners, cleanup | invariants over operation histories |
| C26-C27 | `Model/Client`: `BidirectionalClient` | invariants over histories |
| C28-C30 | `Model/KemperProtocol` | state machine, induction over schedules |
| C31-C32 | `Model/PushButton` | induction over event histories |
| C33-C34 | `Model/Leds` | list arithmetic |
| C35-C36 | `Model/Binary` | case analysis, history induction |
| C37-C38 | `Model/Analog` | integer arithmetic, induction over readings |
| C39-C41 | `Model/Encoder` | induction over positions / turn/accept/cancel histories |
| C42 | `Model/Preview` | schedules |
| C43-C47 | `Model/Rigs` + `Spec/Rigs` (device) | modular arithmetic, end-to-end against the device specification |
| C48 | `Model/Effects` | interval arithmetic over all integers, tables by `decide` over the full table |
| C49-C52 | `Model/Local` | modular arithmetic, histories |
| C53-C55 | `Model/Layout`, `Model/Display` | geometry via `omega`, tree induction |
| C56-C57 | `Model/Tuner` | arithmetic |
| C58 | `Model/Explore`: switch creation, stepping, markers, label rows | induction over press histories, modular arithmetic |
| C59 | `Model/Misc`: `RuntimeMeasurement` | history invariant against the list of durations since the last report |
| C60 | `Model/Misc`: `fill_up_to` | list lemmas |
| C61, C77 | `Model/Morph` | rational arithmetic; invariant over event histories of several displays |
| C62 | `Model/Tuner`: tuner mode overrides | case analysis, histories |
| C63-C64 | `Model/Binary` | histories of presses and device values |
| C65-C66 | `Model/Analog` | integer arithmetic; invariant of the averaging window |
| C67 | `Model/Encoder` | histories; errors are values |
| C68-C69 | `Model/Preview` | histories; rational arithmetic |
| C70 | `Model/Rigs` | case analysis against the device specification |
| C71-C72 | `Model/Effects` | histories of type and state values |
| C73 | `Model/Local`: pager displays | histories |
| C74 | `Model/Local`: parameter up/down displays | arithmetic |
| C75 | `Model/Label` | histories of writes |
| C76 | `Model/Display`: protocol indicator | case analysis, histories |
| C78 | `Model/Table`: all parameter definitions | complete tables lifted to all values; parsing lemmas of `Model/Mapping` |
| C79 | `Model/EffectButton` on top of `Model/Binary` | invariant over histories, parity of presses as specification |
| C80, C81 | `Model/LabelText` | invariant over histories; injectivity of decimal texts; rational arithmetic |
| C82 | `Model/Tempo` | invariant over histories; exact preview condition |
| C83 | `Model/RigDisplay` with `Spec/RigDisplay` (closed loop with the device) | invariant over all histories; counterexamples for the excluded configurations |
| C84 | same | same invariant, no pending preselection |
| C85 | same | drawing after a report, `C45` for the bank |
| C86 | same | case analysis over events; counterexample for labels |
| C87 | `Model/Button.lean`: `SwitchController` → `PushButtonAction` → `BinaryParameterCallback` → `Client.set` → bytes, composed of the models of these parts | induction over the blocks of a history of readings, with C12 for the switch and C20 for the message |
| C88 | same file, closed loop: queues in both directions, pending request, device | invariant "state agrees with the known value, or the device will get the value of the state"; draining of the queues |
| C89 | same, with `feedback` | invariant over queues without crossing messages |
| C90 | `Model/Boomerang` on `Model/Local` (rotating messages) | C51 for each action, then the wire format (C05) |
| C91 | `Model/Wire`, items known/foreign in `Spec/Foreign` | induction over the items of a cut byte stream; measure for polls |
| C92 | `Model/Wire` | real-time bytes between messages (`_partial`), negations with witnesses |
| C93 | `Model/Wire` | progress measure (`_partial`), fixed point of the full buffer as negation |
| C94 | `Model/Thru`: device wrappers over `Model/Wire` and `Model/Routing` | composition of C91, C08 and C04 |
| C95 | `Model/EncoderButton` | induction over the encoders of a configuration (`_partial`), negation for mixed use |
| C96 | `Model/Wheel`: encoder, buttons, switch and preview label put together | invariant over all histories, relating the parts to what the user sees (`Spec/Wheel`) |
| C97 | `Model/Convert` | rounding lemmas, monotonicity |
| C98 | `Model/Wheel` | invariant of the resting encoder (`_partial`), witnesses for the other cases |
| C99 | `Model/Devices`: device tables, set-up and LED setters of all switches on one strip | non-interference by induction over histories; disjointness from the complete tables |
| C100 | `Model/Devices`: claims of pins in the order of start-up | equivalence by induction over the claims; complete tables |
| C101 | `Model/Devices`: stable sort by strobe order | uniqueness of sorted permutations (`_partial`), witness for switches without LEDs |
| C102 | `Model/DefaultDisplay` | arithmetic over all pixels |
| C103 | `Model/Editor`: extractor and generator of the web editor's parser on trees of expressions | generating = pure part + sequence of assignments, look-up lemmas, mutual structural induction (`_partial`: file has the top variable) |
| C104 | `Model/Editor` | mutual induction over expressions inside an induction over the nesting of variables (`_partial`), witnesses for everything outside |
| C105 | `Model/Editor` | invariants of generating, for all files and trees |
| C106 | `Model/Editor` | invariant over the variables in the order they are written; witness where an existing variable needs a new one |
| C107 | `Model/Imports`: adding all imports and removing the unused ones, with an arbitrary order of the sets and an arbitrary analysis of the names used | count of kept names is invariant under permutation of the order (`_partial`); witnesses for all hypotheses |
| C108 | `Model/Simple` on top of `Model/Switch`: pin level, custom messages, keyboard | the edges and presses of C12 and C13, mapped to what is sent |
| C109 | `Model/Simple` with `Model/Label` | cases of the setters (`_partial`), witness for the colour |
| C110 | `Model/Stats`: `Memory` as a state machine over its calls, `format_size` with exact quotients | invariant: the state is what the last call has seen; telescoping sum; induction over the units |
| C111 | `Model/Startup`: the steps of `process.py`, each of which may raise an exception; `boot.py` | all crash points at once: the loop over the steps stops at the first failure |
| C112 | `Model/Startup` with `Model/Label` | invariant of the label over all texts |
| C113 | `Model/Virtual`: the protocol of the virtual device, both sides with two cables, interruptions | phase invariants (before the first beacon, beacon under way, device connected, both connected) with bounds on all times; a weaker invariant for all histories with interruptions |
| C114 | `Model/VirtualParams`: the parameters of the virtual device (keys, values, sets, defaults), client and device with two cables | invariant: an initial beacon is under way, or the last value on the cable is the value of the device, or there is none and PySwitch has this value or has set the one which is under way |
| C115 | `Model/EditorInput`: actions, options and pages of inputs in the tree of C103–C105 | induction over inputs, entries, actions and arguments on top of C104's generation lemmas (`_partial`: files of the form the editor represents, actions which are calls or variables for calls), witnesses for everything outside |
| C116 | `Model/EditorInput`: the same, and the buffered lists of an input | reading inverts writing; invariant of the buffer (`_partial`: hold actions) |
| C117 | `Model/Checks`: the display warnings of the editor, on the actions of C115 | the grouping by pagers and pages is equivalent to the existence of page states (`Spec/Checks`), induction over displays, usages and messages (`_partial`: if the checks end; `C117_ends` says exactly when) |
| C118 | `Model/CallbackQueue`: the queue of routes as a state machine with asynchronous callbacks | invariants over all histories (`_partial`: progress only without failing callbacks, `C118_dead` for the others) |
| C119 | `Model/Bridge`: bit conversions, UTF-8 as in the Encoding Standard | round trips by induction on the data; legality by an invariant of two bridges (`C119_text_partial`: text which cannot be encoded) |
| C120 | `Model/Bridge`: checksum and `receive` | linearity of the checksum: differences of one or two half-bytes are never mapped to zero (`_partial`: command and wider damage, with witnesses) |
| C121 | `Spec/Bridge`: two bridges, any message sent may be received at any time, or damaged ones | ghost log of the transmissions started; invariant of both halves of both bridges (`_partial`: up to 16777216 events, see C120, C122) |
| C122 | `Spec/Bridge`: two bridges with queues | invariant which describes each transmission under way by its phase; measure for the effort (`_partial`: empty files, surrogates, idle transmissions) |
| C123 | `Model/Bridge` `generateId` | arithmetic (`_partial`: largest random number) |
| C124 | `Model/DeviceController`: promises settled by the callbacks of the bridge | from C121 and C122, and from the invariant that chunks are announced after all before were acknowledged (`_partial`, see the witnesses) |
| C125 | `Model/Settings`: settings as a list, the template as a list of entries, options read with `get_option` | the file is the template with each token replaced (induction over the keys); the last value chosen by induction over the history; defaults compared for all places (`_partial`, see the witnesses) |
| C126 | `Model/DisplayEditor`: the display as a tree of elements with numbers for identity, events of the dialog as steps | invariant over all histories (different numbers, used elements kept, selected elements have no children, state dots have their size); order by comparing lists of numbers; `JSON.stringify` is injective up to numbers (`_partial`, see the witnesses) |
| C127 | `Model/Workspace`: store (presets, controllers, folders), current configuration with its mark, two editors with their marks; 16 kinds of events with the answers of the user | case analysis of one step for all states: each event keeps the text, or types, applies, or asks; `C127_open` says when opening goes on; exceptions proved as witnesses |
| C128 | the same model; writing the two files may succeed, fail or write only one of them | `C128_saved` for every step; invariants over all histories for the mark and for configurations without unsaved changes; frame theorems for controllers and folders |
| C129 | the same model; the list of presets in the local storage | laws of the list, frame theorem for every step, names unique over all histories |
| C130 | `Model/Links`: `encodeURI`, `decodeURI`, `decodeURIComponent` on code points with UTF-8, sammy's path, routes and decoding, the callers | round trip of the encodings by induction over the text; the position of the only `#` decides the route |
| C131 | `Model/Shipped`: the foot switches of `content/inputs.py` composed of `Switch`, `Tuner`, `Effects`, `Button`, `Rigs` with the messages of `Table` | an invariant over all events; each switch's part of the state is only changed by its own events (frame), so its behaviour is that of the switch alone; induction over its uses |
| C132 | as C131, with the override of the switches by the tuner | invariants while the tuner is on; witnesses for presses which overlap its beginning or end |
| C133 | the parameters of the virtual Kemper with their callbacks (rig buttons, banks, preselection, number of the rig, tuner), its user interface as events; PySwitch's mapping for the rig fed with the bytes | shape invariant of the parameter table (base part and created extras), refinement to a player with rig, preselected bank and buttons by induction over the history; composed with C131 |
| C134 | tempo (tapping, setting, the light), tuner values of the virtual Kemper, with the update loop | simulation of a metronome and of a tuner with mode and last time, by induction over the history; the light by counting the updates which find half a beat passed |
| C135 | morphing of the virtual Kemper (button, rig buttons, fading, the simulated bug) | simulation of a specification with state, target and selected rig, by induction over the history; arrival by the distance to the target |
| C136 | the shipped configuration and the virtual Kemper, connected by two cables (`Model/Stage`): LED of the effect switches and tuner mode against the values of the device | invariant over all interleavings: the last report on the cable is the value of the device, or PySwitch knows the value, or the last message PySwitch has sent is still on the cable |
| C137 | `Model/Properties.lean`: parameters with metadata, inputs as HTML and jQuery define them, writing and reading of values, the updates of the page selection, `Dialog.edit` and `Dialog.arguments`. `Spec/Properties.lean`: the effective value of a parameter (argument or python default), `Editable`, `Known`. Proved by induction over the arguments (`Lemmas/Properties*.lean`): each input shows the value of its argument, and the choice of the page survives all updates. Partial, the code violates the rest (witnesses). |
| C138 | `nextAssign`, `nextPageId`: `parseInt` is a left inverse of the text of a number, and a pigeonhole argument for the number of tries. |
| C139 | The list of pages as rows which keep the id for their removal button; induction over the operations against an abstract list of pages (`Expected`). Partial: renamed pages (witness). |
| C140 | `inputFor` with the old dialog: the input of a parameter is the fresh one, written with the old value if it is none of the defaults; `Lemmas/PropertiesOld.lean`. |
| C141 | `Model/FrontendLists`: configuration, tree in memory and shown lists, with timers, a queue for dragging and restarts, in any order. Refinement: in each state of an orderly history (`Good`) the tree after all that is left is the fold of the edits; `Lemmas/FrontendLists.lean`. |
| C142 | `Model/PortScan`: pairs of ports, map of attempts by name, answers and timeouts as events in any order. Induction over the events from the end, the state by the history (`Good`); `Lemmas/PortScan.lean`. |
| C143 | `Model/EmulatorMidi`: queue of whole messages, read into the buffer of `Model/Wire`. Invariant over the history: returned, buffered and waiting messages are a sublist of those which arrived, all of them if there was room; rounds by draining. `Lemmas/EmulatorMidi.lean`. |
| C144 | `Model/Runner`: calls as tasks from one `await` to the next, engines with their timeouts, all interleavings. Invariant of sequential histories (only the current engine has a timeout, what is known in each phase of the last call); `Lemmas/Runner.lean`. |
| C145 | `Model/Monitor`: rows, list of ignored messages and their copy in the local storage. What is ignored and running is specified by the history (`Spec/Monitor`), the rows by an inductive relation; induction over the history. |
| C146 | `Model/Connections`: listeners of all ports with the calls of `connect` which wait, all interleavings; and a port with several bridges of the editor (those of `Model/Bridge`) and the one of the device, with messages in order. Invariant (listeners are the bridges of made and waiting connections) by induction; for two bridges an invariant with four states, which is kept by every message under every schedule. |
| C147 | `Model/EmulatorInputs`: dataset of a switch under pointer events mixed with reads, wheel with attached handlers and rational pointer positions. Held is specified by the history; wheels by induction over gestures with `floor (x + n) = floor x + n`. |
| C148 | `Model/EmulatorDisplay`: `split`, the wrapping loop, `splitlines`, positions of lines, `fillRect` calls of the tree and the color of a pixel as a fold over them, LEDs. Widths and the gamma function are parameters. Induction over words and trees; the topmost element is specified by a search in local coordinates (`Spec/EmulatorDisplay`). |
| C149 | `Model/Clients`: choice, wrapper, listeners, timers and tab as a state; searches and virtual clients being created as pending tasks which end by events in any order. Invariant over all events for the single client. |
| C150 | `Model/MidiTypes`: all fourteen types, registration by insertion, the parser with any registry. Uniqueness of the type of a status byte by a full table; induction over the messages of a stream, the buffer as already read part and rest; names of notes over all decimal texts. |
| C151 | `Model/Clients`: from a state with nothing pending, induction over the events after a choice (`_partial`, see the witnesses). |
| C152 | `Model/MidiTypes`: each type of fixed length with a data byte of 128 or more (`_partial`, see the witness for pitch bend). |
| C153 | `Model/Saving`: data objects (changed in place by the code editors, replaced by the others), savings going on with the texts they have taken. Induction over the events: each object, each text taken and each stored file has been part of the configuration; for a folder an invariant of the one saving going on. |
| C154 | As C153, with the invariant that everything going on has the data of the configuration, for users who wait (`_partial`, see the witnesses). |
| C155 | `Model/Colours`: texts as lists of characters, `parseInt` and `toString(16)` of JavaScript. Round trip: hexadecimal pairs by a full table of 256 values, decimal numbers and blanks by induction. |
| C156 | `Model/Tabs`: tabs with their display state, what the browser remembers. Invariant by induction over the events; the restart by induction over the added tabs. |
| C157 | As C156, for histories from the first start without removal of the active tab (`_partial`, see the witnesses). |
| C158 | `Model/Browser`: trees, addresses instead of references, stable sorting. Invariant: a displayed entry is not callable and its path is remembered; reachability by induction over the address. |
| C159 | As C158: resolving a path gives its address if texts are unambiguous and the folder is still there (`_partial`, see the witnesses). |
| C160 | The check of answers is characterised; the search with messages is mapped to the search of `Model/PortScan.lean` (C142); the virtual device by an invariant over its histories: no key of a parameter is a proper prefix of the requested one, and the requested parameter is a number. |
| C161 | Invariant over the events: each button is a function of its parameters and the rigs seen so far, and the virtual device behaves like the one of the documentation (`Spec/Rigs.lean`) for what the buttons send, so C43 to C47 apply. |
| C162 | The same invariant as for C161, with the preselected bank of the shared data and of the device. Partial: after a preselection the next rig must be selected with a rig select or bank select button. |
| C163 | The invariant of C161 with the held buttons: each button is the one determined by the rigs seen so far, with the slot which it has sent; the buttons of the device are down exactly for the slots sent by held buttons. Partial: a button is not pushed while another one with the same slot is held. |
| C164 | `Model/ParserSync`: python object with parsed files and hardware, loaded trees, configuration, frontend; invariant over all histories: the trees are loaded, the python object is for the hardware of the code, and everything agrees with the code if it is accepted. |
| C165 | The model and invariant of C164; the result of an edit compared to the specification which only knows the code. Partial: the code must be accepted by python at the time of the edit. |
| C166 | `Model/ActionNames` computes the name from the call in the source code: names for positional arguments (`_parse_call`), arguments, replacement of tokens as `replace` of JavaScript does it, with its patterns. `Spec/ActionNames` says which parameters python binds (`Bound`, `Legal`), which names say what (`Meaning.names`), and what this means for the rigs before and after a press (`Meaning.Does`). The panels of C161/C162 show that this is what happens in the device (`C166_panel_partial`). `C166_unambiguous`: no name has two meanings. |
| C167 | State machine over opening, closing, changes and restarts, with the number of the tree for which a handle is valid. Invariant by induction over careful histories gives the wanted configuration; a second induction over all histories gives that other switches are untouched. Partial: a second change in an open dialog is lost, 0 is shown as 600, nothing is written as `NaN`, negative times are accepted, and switches missing in the configuration fail. |
| C168 | Panel of switches whose actions are asked for `enabled` one after the other while a pager changes the page. Wanted calls by induction over all histories for good configurations; pushes and releases in turns by an invariant on what is down, if no page is changed while another switch is down; switches with hold actions: each call extends the list by complete clicks. Partial: the witnesses show stuck buttons and double actions in the other cases. |
| C169 | Any number of popups with their handlers at the window. Refinement to one open popup without handlers, by an invariant (the handlers are those of the open popup), for histories with one popup at a time; the question is proved for all histories by counting closings and answers. Partial: several popups at a time, timers which run too late. |
| C170 | wheel with a list of encoder actions (`Model/WheelPages.lean`, each one is the model of C39/C40), readings with the enabled actions. `C170_enabled`: exact description, each direct action follows the wheel through the readings at which it is enabled (induction over readings and actions); `C170_pages_partial`: this is the wanted value if the wheel has the same position as before when an action is enabled again; `C170_disabled`: actions which are not enabled neither change nor send, for all actions and states | partial: `C170_jump_witness` |
| C171 | On the model of C170: invariant that a pending preselecting action is a client of its display and its value is the one shown last there, and that a shown value of a preselecting action is pending; the invariant is kept by every event (a preview cancels all other clients). Accepting a list of actions then sends one value at most. |
| C172 | On the model of C170, with the invariant of C171 and the additional one that a pending value is on the display. Partial: actions without reset mappings, and cancel buttons which belong to all actions of the display or none; the code violates the statement otherwise (two witnesses). |
| C173 | Model of the message list; what is visible equals the messages of the history which are not removed by a later event and not expired, by induction over the history. |
| C174 | On the model of C173, with the visible text of HTML code. Partial: texts in which no tag begins (`C174_text_partial` says that this is exact), and errors of the device during transfers; false otherwise (witnesses). |
| C175 | Model of the lists with their kept contents and of the callbacks of the inputs, over all histories. Partial: no port comes or goes after MIDI access has been granted (`C175_still_partial`); in general the lists show what was there at their first opening (`C175_first_partial`). |
| C176 | Callers as interleaved processes, invariant on the kept catalogue over all histories without failures. Partial: callers who do not call while another one is loading (`C176_later_partial`, `C176_first_partial`); false otherwise (witnesses). |
| C177 | Arguments as a list of pairs, inputs as values of the browser; refinement to "the last input of each parameter" by induction over the history. Partial: parameters with numbers and empty inputs (false there, see the witnesses). |
| C178 | Arguments as a list of pairs; each setting by its argument. Partial: the font (which replaces the layout) and the selections of mappings (false there, see the witnesses). |
| C179 | Case analysis of the new value of the argument, for all catalogues. Partial: entering `None` (false there, see the witness). |
| C180 | Invariant: the colours are given in turn and each key has one; pigeonhole for the number of keys. Partial: names which become the same text together (false there, see the witness). |
| C181 | Invariant over all histories: the stored channels are the parsed texts entered last since the last reset; then case analysis of the device. Partial: texts which are no channel (false there, see the witnesses). |
| C182 | Induction over the path for all trees: the entries of the tree correspond to the folders reached by the same names; composition with C130 for the links. |
| C183 | Induction over the tree. In full for templates; partial for examples: folders of which all subfolders are left out (false there, see the witness). |
| C184 | Induction over the events between two measurements, arithmetic for the rates. Partial: rates if the timer is not exact (false there, see the witness). |
| C185 | Induction over the list of clients and their actions. Partial: unknown actions if there is one action for the hardware only (false there, see the witness). |
| C186 | A text without line breaks is part of a file exactly if it is part of one of its lines (induction over the lines). Partial: configurations which mention other devices (false there, see the witness). |
| C187 | Case distinction on the ratios, with factors as fractions (cross multiplication). |
| C188 | Mutual induction over the tree of statements, with the depth of the visitor as invariant inside and outside of the class. The same for the methods. Partial: inner classes of the same name, assignments to more than one name, local functions of methods (false there, see the witnesses). |
| C189 | Induction over the mappings; correctness of the sort by a permutation and a total order on texts. |
| C190 | Induction over the lists of clients, functions and parameters; non-interference of other clients by a filter. |
| C191 | Invariant over histories: the data follows MIDI connection and protocol, the look follows the state set last. Partial: an emulator which is not running (false there, see the witness). |
| C192 | The loop as a fold; induction over the items: each slot starts at the sum of the previous heights, the width is the maximum. |
| C193 | Recursion over the attributes; membership and order by induction, any permutation of the attributes gives a permutation of the list; the tables of the shipped devices are evaluated completely. |
| C194 | Induction over the events with the rounding of `setModelBounds`. Partial: movements by whole pixels of the display (what snapping gives); for others, an error of at most half a pixel per event (false that they add up, see the witness). |
| C195 | Insertion sort for the list; the search of patterns is characterized by `Like` (a dot stands for any character), then case distinction. Partial: the links of the page of the versions (false, see the witness). |
| C196 | Folding over the import statements; the conditions on the shipped catalogue are decided as a table and lifted to all orders of the clients and all surrounding imports. Partial: statements in which several clients occur (false there, see the witness). |
| C197 | Arguments of calls without repeated names are a partial function; the icons are characterised by cases, the pages by the lemma on texts with exactly one dot. Partial: the LEDs of pager proxies and of arguments without name (false there, see the witnesses). |
| C198 | The searched pager is the only value of its variable; induction over the pages; the named colours are decided as a full table. Partial: ids in another notation and colours in variables (false there, see the witnesses). |
| C199 | A text without line breaks is in a file exactly if it is in one of its lines (lemma of C186); the catalogue of actions is decided as a full table. Partial: configurations with both clients (false there, see the witnesses). |
| C200 | Induction over the derivation that an expression is a number, then over the arguments of the call, with the names which are still free. Partial: calculations and variables which are assigned several times (false there, see the witnesses). |
| C201 | Mutual induction over the table of contents (paths and names of modules), then over the list of modules and the statements. Partial for classes: private, inner and local classes, and bases which are not names (false there, see the witnesses). |
| C202 | Invariant over the history for the checkboxes; case analysis over all letters and accidentals for the notes. Partial: flats (false there, see the witnesses). |
| C203 | The two kinds of removal of prefixes keep a call a call (induction over the text), and the readable name can be read back to the name of the mapping, so it is injective. Partial: the arguments of mappings (false there, see the witness). |
| C204 | A message which a parameter takes cannot be the message of another one (bytes 0 and 5), so the order of the two tests does not matter; prefixes of addresses; the bytes are read back from the cells (full table of bytes, induction over the join). Partial: names of unknown NRPN messages (false there, see the witness). |
| C205 | The list is a stable sort, so a strict comparison of the texts decides; the texts differ at a character with another place in the alphabet, which is shown for all pairs of groups with any continuation. |
| C206 | Names of keys have no small letters, so the prefix is found exactly where it was written (induction over the list of keys); the brackets are removed, and the joined names can be read back. Partial: texts with quotes (false there, see the witness). |
| C207 | State machine of the two inputs, the name and the buttons; induction over the history for the marks, and for what is shown after the last update. Partial: ids with double quotes, pagers without a name, and new names of pagers (false there, see the witnesses). |
| C208 | The rows by level are characterized by induction over the parameters; an invariant over the history gives the closed form of what is shown, of the button and of its text. |
| C209 | The search is the first match in the list of all objects of the tree (induction over trees); all objects with a variable are the value of the variable in the file (induction over the recursion limit and the expressions), and each used variable is in the tree. Partial: variables which are only used under another name (false there, see the witness). |
| C210 | Invariant over histories, on top of the refinement of the device to `Player` (C133): the callback of the input is called exactly for changes of the rig and bank buttons, and the device already has the new rig then. Partial: numbers told by another device (false there, see the witness). |
| C211 | The nested callbacks end after three calls, with a closed form (`C211.write_eq`). Invariant over histories: the input contains the rounded tempo, the parameter is its value. Partial: faster tempos than 256 BPM while the parameter already has the greatest value (false there, see the witness). |
| C212 | Invariant over histories: options, buttons, rows and local storage agree; the options are the parity of the clicks. Partial: hexadecimal numbers in rows which are there before the click (false there, see the witness). |
| C213 | The loop over the messages gives each input its own messages one after the other (induction over the messages and the inputs); the classes are an invariant of each message. |
| C214 | The sort is a permutation, ordered and stable (induction over the list); the digits of a name whose family has no digits are those of its height. Families with digits: witness. |

## Disagreements found between code and property

Each line names a theorem which proves, with a concrete witness, that the code does not do what the
property says. The property itself keeps its full statement; what is proved of it has the suffix
`_partial` and says what is missing.

| theorem | what happens |
|---------|--------------|
| `C06_sysex_split_lost` | a SysEx message cut in two by the transport's read is lost |
| `C09_split` | with several sources, a message can overtake an earlier one of another source |
| `C14_stale_hold`, `C15_stale_hold` | a hold pending when an override is set stays pending and fires later |
| `C16_long_template` | templates with more than eight data bytes get the value at the wrong place |
| `C25_second_listener_lost`, `C25_termination_lost` | only the first listener of a dependent parameter is informed; none if the trigger does not answer |
| `C26_late_registration_lost` | registration of a bidirectional parameter while a one-shot request is pending is lost |
| `C29_quick_reconnect` | a lost connection which is restored within one tick is never reported |
| `C35_stale` | a repeated equal value is not evaluated again: a refused switching stays displayed |
| `C63_enable_blocked` | a list with an unresolved "auto" entry blocks switching on |
| `C38_max_missed` | the calibrated maximum is not reached with 100 steps and an NRPN parameter |
| `C65_out_of_range` | with calibration, transfer functions get 65536 |
| `C66_window_zero` | an averaging window of zero divides by zero |
| `C40_step_lost`, `C40_position_lost`, `C40_preselect_start` | encoder turns lost after a device change, at position -1, and at the first preselection |
| `C67_cancel_first`, `C67_bank_first` | cancel or a bank encoder turn before the first value raises |
| `C42_no_callback` | a label without text callback keeps the preview text |
| `C68_blink_left` | a preview ended by timeout can leave the blink color |
| `C44_preselection_pending` | rig up/down with pending bank preselection loads a rig of the preselected bank |
| `C45_no_banks` | with zero banks the preselection divides by zero |
| `C70_same_slot`, `C70_same_bank` | the automatic off rig is wrong if slot or bank are equal |
| `C48_dual_chrom` | type 137 has a name but the category "none" |
| `C72_on_again`, `C72_stale_off` | empty slots shown as on; loaded slots shown as off |
| `C49_zero_id`, `C49_unknown_id`, `C49_mappings_raise` | pages with id 0, unknown ids, and mapping queries of pages |
| `C73_stale` | a selector enabled after the page change shows the LEDs of the old page |
| `C52_runaway` | parameter repetition does not stop if the action is disabled while held |
| `C54_children_argument` | children passed to the constructor are not laid out |
| `C55_late_child`, `C55_container_again` | late elements stay uninitialised; containers can be initialised twice |
| `C56_outside`, `C56_exact_first` | tuner marker leaves the area by a pixel; exact pitch as first value is not "in tune" |
| `C57_endless`, `C57_stale` | strobe with speed 0 never returns; LED cache stale after re-engaging |
| `C59_zero_start` | a measurement started at clock 0 is lost |
| `C62_second_release_lost`, `C62_stale_press`, `C62_hold_fires` | tuner mode with several switches pressed |
| `C77_stuck`, `C77_other_late` | morph display keeps showing a morph the device did not do; other displays follow late |
| `C79_early_press` | an effect button pressed between a page change and the next update sends "on" but shows "off" |
| `C79_reset` | after tuner mode or paging an effect button shows "off" and sends "on" again although the effects are on |
| `C79_disabled_label` | a rig change makes a disabled effect button write to its label |
| `C80_stale`, `C80_missed` | the rig label keeps showing a bank whose preselection has been removed; misses one made again quickly |
| `C82_missed` | the first tempo change after a rig change without tempo change is not shown in the change display |
| `C82_page` | the tempo label is not restored when its page is shown again |
| `C83_off_bank_only` | RIG_SELECT with off bank but no off rig shows its own rig while it is current, but a press leads to the off bank |
| `C83_bank_up_stale` | BANK_UP/DOWN preselection does not redraw rig select switches before the next blink |
| `C83_rig_down_preselected` | RIG_UP/DOWN ignore a pending preselection: label and press differ, and the preselection stays in the switches after the device has used it up |
| `C86_hidden_label` | updates of hidden RIG_SELECT (and BANK_*) actions write their labels while a bank is preselected |
| `C87_stuck` | a reset (page change) or the first periodic update while a momentary switch is held: the off message of looper and tap tempo is never sent |
| `C88_front_panel` | parameter changed back at the device before the next answer: the answer equals the known value and is not evaluated, LEDs wrong for ever |
| `C88_auto` | RIG_VOLUME_BOOST with the volume already at or above the boost value: pressing shows off, sends nothing, LEDs wrong for ever |
| `C89_crossing` | crossing messages leave LEDs and device different for ever |
| `C90_three_leds` | with three LEDs the Boomerang LEDs (period 3) do not tell which of the two programs comes next |
| `C92_inside_control_change`, `C92_inside_sysex` | a MIDI clock byte inside a message destroys it |
| `C92_running_status` | messages with running status are lost |
| `C93_stuck`, `C93_lost` | an input buffer full of data bytes with a Control Change status byte at its end is never read or emptied again |
| `C94_channel` | passing through puts all channel messages on the output channel of the target |
| `C95_mixed` | a button accepting one encoder and cancelling another one does only one of both, with both |
| `C97_volume_zero` | volumes are shown as `-0.0dB` or `+0.0dB` |
| `C98_first`, `C98_stale`, `C98_rig` | in the default configuration, the first turn of the wheel starts at 0 instead of the current gain; later ones start from an old gain if it has changed on the device, also after a rig change |
| `C98_crash` | in the default configuration, holding the wheel button without a device and then turning the wheel raises an exception |
| `C101_dark_place` | with the shipped inputs the strobe tuner has eleven places, one of them (the wheel button) without LEDs |
| `C103_lost`, `C103_undefined` | web editor: in a file without `Inputs`, the tree is silently not saved if there is a function, class or other compound statement, and variables of the tree are never written |
| `C104_star` | web editor: saving drops the star of `*actions` |
| `C104_single_quotes` | web editor: keys in single quotes get the quotes into the key |
| `C104_alias` | web editor: a second name for a pager becomes a pager of its own |
| `C106_too_late` | web editor: a new variable inside of an existing one is written after the statement which uses it, so the saved file raises `NameError` on the device |
| `C107_function_first` | web editor: if `inputs.py` begins with a function, imports are put inside of it and needed names are not imported |
| `C107_function_import` | web editor: names imported inside of functions and on module level share one list, so the import on module level can get lost |
| `C107_other_module` | web editor: a name imported from a module of the user can silently be taken from a module of the definitions, depending on the order of a set |
| `C107_twice`, `C107_later` | web editor: a name imported twice in one statement is not imported at all any more; of two imports, the one before the first use can be removed |
| `C109_wrong_color` | `DISPLAY_FIXED_TEXT` assigns `text_color` to `label.color`, which nothing uses: the text is never drawn in the configured colour |
| `C104_twice` | web editor: a variable set twice gets its first value everywhere |
| `C104_empty_list` | web editor: a file with a variable set to an empty list cannot be saved |
| `C115_pages_variable` | web editor: a pager whose pages are in a variable cannot be shown |
| `C115_actions_variable` | web editor: no action can be shown if the list of actions is in a variable |
| `C115_expression` | web editor: an input with an action which is no call (e.g. an imported action) cannot be saved any more |
| `C115_none_removed` | web editor: entries `None` of a list of actions are removed |
| `C115_page_key` | web editor: keys of pages it does not know are removed |
| `C115_port_variable` | web editor: an input whose assignment is a variable of the file is not found |
| `C116_stale_hold` | web editor: hold actions which were read before setting others are read again |
| `C117_positional` | web editor: a display given as positional argument of an action ends the checks (and the view of the inputs) with an exception |
| `C118_dead` | web editor: after a route callback has thrown, no route is executed any more |
| `C119_text_witness` | file transfer: a byte order mark at the start of a text (or chunk) is lost |
| `C120_command_witness`, `C120_three_witness` | file transfer: the command of a message is not covered by the checksum; three damaged half-bytes can go unnoticed |
| `C122_surrogates_witness` | file transfer: an emoji on the border of two chunks is replaced by two replacement characters |
| `C122_idle_witness` | file transfer: a transmission whose acknowledgement takes more than five seconds is forgotten when another one is started |
| `C122_empty_witness` | file transfer: asking for an empty file causes an endless exchange of empty chunks |
| `C123_seed_witness`, `C123_lost_witness` | file transfer: with the largest random number, the first two transmissions have the same id, and the first one is lost |
| `C124_unsaved_witness`, `C124_lost_witness` | saving to the device is reported as successful before the last chunk is sent |
| `C124_empty_witness` | saving an empty file to the device never ends |
| `C124_load_witness` | loading a file can return the contents of another one which was asked for before |
| `C125_interval_witness` | an interval of 2000 for the statistics is not written to config.py, and the controller takes the update interval instead |
| `C125_empty_witness` | a number field left empty writes `null` to config.py, which Python cannot load |
| `C126_nested_witness` | two labels in a nested container can have the same name: only the direct children of the display are checked |
| `C126_digit_witness` | names of elements can start with a digit, which Python cannot load |
| `C126_callback_witness` | a change of the display callback is lost without asking when the dialog is closed |
| `C126_version_witness` | showing the version in a label with a shared layout is lost, or changes other labels |
| `C127_silent_witness` | text in a code editor which is not applied is lost without a question when the other editor is applied, on any edit in the user interface, on a change of the settings, an upload, the back button, and with a local folder on a change of a file, on opening and on saving to another folder |
| `C127_drop_witness` | unsaved changes are lost without a question by the back button, by a change of a file in the local folder (against the comment in `LocalFolderConfiguration.js:132`), and by opening another folder |
| `C128_hardware_witness` | applying a text for another controller type which python does not accept changes the configuration without marking it as changed |
| `C128_broken_witness` | text which could not be applied is saved, and the preset cannot be opened afterwards |
| `C128_folder_witness` | after a failed attempt to save to another folder, saving goes to that folder instead of the one the configuration is from |
| `C128_select_witness` | if the local folder cannot be found, selecting another one has no effect |
| `C128_empty_witness` | a file saved empty in a folder is shown as the template when opened again, without unsaved changes |
| `C129_rename_witness` | renaming a preset to the name of another one removes the other one without a question |
| `C130_plus_witness` | choosing the preset `Lead+Delay` opens the preset `Lead Delay` (sammy turns `+` into a space) |
| `C130_percent_witness` | a preset with `%` in its name cannot be opened, or another one is (decoded once too often) |
| `C130_query_witness` | choosing the preset `Rock?` opens the preset `Rock` (the rest is taken for a query) |
| `C130_hash_witness` | a preset whose name ends with `#` leads to the scan, one with `#controller/…` in its name opens a controller |
| `C132_toggle_witness` | shipped configuration: with two switches pressed in the tuner, the first release leaves it and the second one switches an effect |
| `C132_hold_witness` | a press begun before the tuner is switched on changes the bank in the tuner |
| `C132_flash_witness` | after a press which began in the tuner and ended after it, the next use of the tuner ends as soon as UP is released |
| `C132_lost_witness` | after the connection is lost in the tuner, the switches stay without function until one has been pressed |
| `C132_light_witness` | a report of an effect while the tuner is on lights the LEDs of its switch |
| `C133_program_witness` | the virtual Kemper changes the rig on a program change, but PySwitch still knows the old one, as the answer has the lower part of the number only |
| `C133_name_witness` | with a rig selected by its number, the virtual Kemper still reports the name of the rig before |
| `C133_swallowed_witness` | if the release of a rig button is lost (the tuner has come on), the next press of the button does nothing at the virtual Kemper |
| `C135_continues_witness` | when another rig is selected during the morphing, the morphing goes on with the new rig |
| `C135_fast_witness` | morphing takes 40 updates, whatever time they take: 0.2 seconds with the updates every 5 ms of the editor instead of the 4 seconds which are set |
| `C136_early_witness` | an effect switch which is pressed before the type of the effect is known stays dark although the effect is on and reported, until a report of the tuner mode arrives (which sets the LED right) |
| `C136_emptied_witness` | when an effect slot is emptied and loaded again with the effect switched on, the LED stays dark |
| `C137_added_witness` | Opening and applying an encoder action without changes adds `preview_reset_mapping = KemperMappings.RIG_ID()`, because the dialog has another default than the code. |
| `C137_unlisted_witness` | A value which is not among the options of a selection is dropped (required parameter) or becomes null (optional parameter). |
| `C137_order_witness` | `select_page` in front of `pages` in the source code is lost, the pager rotates afterwards. |
| `C137_quoted_page_witness` | A page which is selected by an id in double quotes is lost. |
| `C137_quotes_witness`, `C137_broken_witness` | Quotes inside a text are lost; for other parameters the replaced quotes break the source code. |
| `C137_unknown_witness` | An argument which is no parameter raises an exception when the dialog is opened. |
| `C139_renamed_witness` | The removal button of a renamed page removes nothing, or another page which has the old id now. |
| `C139_same_id_witness` | Pages with the same id are removed together. |
| `C140_unlisted_witness` | A value which is taken over into a selection without this option leaves it empty (observation; no two actions of the editor have such parameters at present). |
| `C141_fast_witness`, `C141_lost_witness`, `C141_dragged_witness` | The new list of an edit is computed at once but set 100 ms later, from the items shown before: a second edit (or dragging) within this time discards the first one. Moving an action between press and hold is two such edits; if the restart of the first one is done before the second timer, this one fails as its lists are gone, and the action is lost. |
| `C142_same_name_failures_witness`, `C142_same_name_successes_witness`, `C142_same_name_both_witness`, `C142_manufacturer_witness` | The attempts of a search are kept by the name of the port: for two devices of the same name (four pairs) the callbacks are called several times, even failure and then success. Ports are found by their name only, so the pair of another manufacturer may get a port of the first one. |
| `C143_lost_witness`, `C143_too_long_witness` | `WrapMidiInput.read` takes a message from the queue before it looks whether there is room for it, and drops it if not. A message of 98 bytes is lost if three bytes wait in the buffer, a message with more than 100 bytes always. (`cnt` is never counted up, so many short messages may also exceed the number of bytes asked for; this does no harm.) |
| `C144_overlap_witness`, `C144_double_witness`, `C144_broken_config_witness` | Calls of `run()` which overlap (two restarts shortly after each other) can leave an engine behind which ticks forever, also after `stop()`, or start the same engine twice. If `init` of the engine fails, `running` stays true although no tick will ever reset it, so every later `stop()` and `run()` waits forever: after an error in the configuration the editor has to be reloaded. |
| `C146_reconnect_witness`, `C146_endless_witness`, `C146_load_witness`, `C146_save_witness` | `DeviceController.connect` never detaches the bridge of the former connection. After connecting to another controller and back, two bridges listen: each acknowledges everything. The device takes the second acknowledgement for an error (as `JsMidiBridge.js` does; the bridge of the firmware is only there in compiled form and is taken to work in the same way), which is acknowledged twice again, and so on without end. Loading is rejected because of these errors, saving waits forever because the old bridge throws for acknowledgements which it does not know, and `MidiHandler.js:123-127` then does not go on to the new one. |
| `C147_missed_witness`, `C147_touch_witness`, `C147_cancel_witness`, `C147_comment_witness` | The emulated switch is a flag which is read now and then: short pushes get lost. `touchstart` and `touchend` do not prevent the mouse events which browsers send after a tap (this is a fact about browsers, not about the code), so a tap counts twice. There is no handler for `touchcancel`. The condition for the comment about a release tests a text, for which `"false"` is true. |
| `C148_blank_witness`, `C148_bright_witness` | `wrap_text_to_pixels` of the emulator puts a blank before the first word, and an empty line above it if it does not fit with the blank. LED components are multiplied by three before the correction, so that all from 85 on are 255. |
| `C113_too_short` | a time lease of one second is accepted but sent as zero steps of two seconds: the connection is not established |
| `C151_search_wins_witness`, `C151_search_wins_port_witness`, `C151_name_witness` | A search for clients (one second) is not ended by a choice of the user: when it is over, it connects to what it has found, or to the virtual client, although the user has chosen another client, or none, in between. A MIDI port with a name which starts with "virtual" cannot be used, as it is taken for a virtual client. |
| `C152_bend_witness` | `PitchBend.from_bytes` does not notice a status byte in place of its first data byte: a pitch bend which is interrupted by another message is taken for one with a wrong value, and the other message is lost. All other types report a bad message. (Library; PySwitch does not import pitch bend by default.) |
| `C154_lost_witness`, `C154_torn_witness`, `C154_order_witness` | `Configuration.save` clears the mark after writing (`Configuration.js:76-79`), not when the data are taken: a change made while saving is neither stored nor marked. `DeviceController.saveConfig` takes the second file only after the first one has been written, from the object the code editors change in place: the controller may get files which never belonged together. Two savings to a folder at the same time may write in any order. |
| `C155_other_witness` | Other colours the firmware accepts (several colours, lists, `DEFAULT_SWITCH_COLOR`) are shown as black by the colour input, because `rgbToHex` gives `#NaN…` for them. (Not part of the claim.) |
| `C157_removed_witness`, `C157_start_witness` | `Tabs.#update` (`Tabs.js:229-247`) selects the first tab only if no name is remembered, but removing the active tab does not forget its name: after choosing another client while the tab of the virtual client is active, no tab is displayed, also after all following starts, until the user selects one. |
| `C159_text_witness`, `C159_gone_witness` | `BrowserEntry.resolvePath` (74-90) takes the first child with the text, and goes on with the rest of the path if a part of it is gone; `browse` calls what is found if it is callable. So opening the popup can load or select something without the user selecting it. |
| `C160_set_witness`, `C160_incomplete_witness` | The message with which PySwitch sets the rig volume has the form of the answer, so a port from which it comes during the search is taken for a Kemper. A message without end makes the virtual Kemper create a parameter with a shorter key, which then takes the requests of others. |
| `C162_rig_up_witness`, `C162_bank_up_witness`, `C162_device_witness` | Rig up with a pending preselection goes to the preselected bank; bank up (without preselection) keeps a pending preselection, which takes effect later; preselecting the current bank is not remembered by PySwitch, but by the device, so after a change of the rig at the device a rig button selects a rig in a bank which is not displayed. |
| `C163_same_slot_witness` | While a button for rig 3 is held, a button for rig 3 of another bank has no effect with the virtual Kemper: the value of its slot button does not change. |
| `C165_lost_witness` | After applying code which python does not accept (an error is shown, the configuration has the new code), an edit in the lists generates the code from the files parsed before: the new code is lost without any message. |
| `C170_jump_witness` | a disabled action does not notice that the wheel is turned; when its page is selected again, its parameter jumps by everything which has been turned on other pages, and this is sent |
| `C169_container_witness`, `C169_cross_witness`, `C169_timer_witness`, `C169_hidden_witness` | All popups share one container: closing one makes the others invisible without asking them, while their keys still work; the close button of one popup closes the others too; a popup hidden before its timer has run is closed again by the next click; hiding a popup which is not open calls its close callback. |
| `C168_held_witness`, `C168_reset_witness`, `C168_same_switch_witness`, `C168_toggle_witness` | If the page is changed while another switch is down, the action pushed is not released (a momentary button stays on) and the one of the new page is released without a push; actions of all pages are reset, so that they stay on as well; an action of page 2 behind the pager on the same switch is pushed together with the change to page 2; two page selections on one switch cancel each other. |
| `C167_second_change_witness`, `C167_zero_witness`, `C167_empty_witness`, `C167_negative_witness`, `C167_missing_witness` | A second change in the settings dialog of a switch ends with an error since the handle is not valid anymore; a hold time of 0 is shown as 600; clearing the hold time writes `NaN`; negative times are written; for a switch which is not in the configuration each change is lost. |
| `C166_none_witness`, `C166_preselect_witness` | `RIG_SELECT(rig = None, rig_off = 2)` is shown as "Toggle Rigs None/2", but rig 2 is never selected. `C166_preselect_witness`: `BANK_SELECT(bank = 4, bank_off = 2, preselect = True)` is shown as "Toggle Banks 4/2", but it only preselects bank 4 (the documentation of `bank_off` says that it is ignored then). |
| `C172_rig_witness`, `C172_cancel_witness` | A pending preselection of one encoder action becomes invisible when another action on the same preview display is cancelled (by its reset mapping or by its own cancel button), because `cancel` resets the display even if it shows something else. The accept button still sends the invisible value. |
| `C174_tag_witness`, `C174_device_witness` | Messages are set as HTML code, so that `<module>` and `<exec>` of every Python traceback vanish. Errors sent by the device outside of a transfer are not shown: the handler of `connect` calls `Controller.message`, which does not exist, and the one of a finished transfer rejects a settled promise. |
| `C175_plugged_witness` | The lists of MIDI ports are filled only once, and callbacks for messages are only attached to the inputs which exist when the application starts. A device plugged in later is missing in lists opened before, removed devices are still offered, and nothing is received from new devices until the page is reloaded. |
| `C176_overlap_witness`, `C176_failed_witness` | The catalogue of actions (callbacks, mappings) is kept before its meta information has been put in: callers at the same time get it without, which ends in an exception when they use it. If the meta information cannot be loaded once, all later callers get the incomplete catalogue. |
| `C177_number_witness`, `C177_sum_witness`, `C177_empty_witness` | A number entered for a setting of the display driver (such as `strobe_speed`) is written to the code as a text in quotes, also if it is the default, and the input is empty afterwards. The default `8192 + 350` is shown as 8192. A cleared input becomes empty code while the dialog shows the default. |
| `C178_font_witness`, `C178_note_witness`, `C178_deviance_witness`, `C178_layout_witness` | Choosing a font for a tuner element drops all other attributes of its layout. The mapping of the note is not selected when the settings of an existing tuner are opened, and the one of the deviance is not selected any more after it has been chosen. The settings cannot be opened if the layout has no font. |
| `C177_text_witness` | A text in an input for numbers of a callback is stored as the text `"NaN"` (`ParameterList.js:423`). |
| `C179_variable_witness` | If the callback of a label is a variable, the input for it is empty, as if there was none (`DisplayLabelTypeParameterList.js:67`). |
| `C179_none_witness` | The dialog shows `None` for labels without callback, but if the user enters `None` to remove a callback, the generated code is `None()`, which stops the controller with an exception. |
| `C180_names_witness` | The colour of a page mark is kept by the names of pager and page put together, so that page 11 of `_pager` and page 1 of `_pager1` have the same colour. |
| `C181_all_witness`, `C181_text_witness`, `C181_range_witness` | The channels of the communication settings are not checked: "All" as output channel is shown as channel 1 but stops the start of the emulator; any text as input channel makes it listen to all channels; 0 and 17 stop the start, also every time the page is opened again. |
| `C183_empty_witness` | A folder of examples with a file, of which all subfolders are left out, is shown as a folder with nothing in it, as files beside subfolders become entries of the tree. |
| `C184_late_witness` | The rate of messages is the number of messages multiplied by the time since the last measurement instead of divided by it: ten messages in two seconds are shown as 20/s instead of 5/s (`C184_late`: for all numbers of seconds). |
| `C185_single_witness` | If there is only one action for a type of hardware, as for pedals, the dialog for an unknown action of the configuration shows this one, and applying replaces the unknown action by it without notice. |
| `C186_comment_witness` | A comment which names the module of another device makes the web application show the other device, although the configuration does not import it. |
| `C188_double_witness`, `C188_inner_witness`, `C188_local_witness`, `C188_nested_witness` | Of `a = b = value` only `a` is found; after an inner class with the same name, attributes are lost; if functions and attributes are extracted together, local variables of functions are given as attributes, and local functions of methods are given as methods (the web application does not do this). |
| `C48_flanger_witness` | The extended names of effects give the name of the one way flanger to type 90, while `effect_state.py` documents it as type 91: with extended names, the label for type 91 shows the name of its category. |
| `C191_stopped_witness` | The protocol state is only written by successful ticks and never reset: after the emulator has stopped by an error, the button goes on showing that the client is connected. |
| `C194_lost_witness` | The position is rounded with each event of a drag (`DisplayNode.js:259`) and the next movement is added to the rounded one: movements by less than half a pixel of the display are lost, however many. The grid of the library avoids such movements. |
| `C195_link_witness` | The links on the page of the versions (`index.php`) have no slash at the end, but the conditions written by `PySwitchUpdater.php` need one: the request is rewritten to a folder inside of the latest version which does not exist. `C195_dot_witness`: the dots in the names of versions are not escaped, so that other folders are excluded as well (harmless). |
| `C196_comment_witness`, `C196_twice_witness` | The client of an action is searched as a text in the whole import statement (`PySwitchParser.py:376-378`), including aliases and comments in it: a comment with the word `local` makes the editor forget the action, depending on the order in which the web server lists the folders. If a name is imported twice, the first statement counts, for Python the last one. |
| `C197_proxy_witness`, `C197_position_witness` | The icon for the LEDs looks up the definition by the name of the call (`ParserFrontendInput.js:113`), not by the definition name as the text does (`:64-67`): proxies of pagers never get the default. Arguments without name are not recognized (`ParserInputAction.js:106-116`). |
| `C198_quotes_witness`, `C198_variable_witness` | Ids of pages are compared as source code (`ParserFrontendIcons.js:86`), so that other quotes make another page. A colour given by a variable is put into CSS as it is (`:49`), which is no colour, and the mark stays without any. |
| `C199_most_witness`, `C199_comment_witness` | `estimateClient` is documented to determine the client which is used the most (`ClientFactory.js:19`), but takes Kemper as soon as its modules are mentioned anywhere, also in comments (`:24`). |
| `C200_calculation_witness`, `C200_twice_witness` | The editor takes the number at the beginning of the source code (`DisplayNode.js:236`, `parseInt`): `240 - 40` is shown as 240. For a variable which is assigned several times, the first value is shown (`CodeExtractor.py:140-147`), the device uses the last one. |
| `C201_private_witness`, `C201_base_witness` | "All public classes defined on module level" (`ClassNameExtractor.py:10-32`): private classes and classes inside of functions and other classes are listed as well (`include_underscore` is not used), and a base like `module.Base` makes the whole list fail, as `base.value.value` is not a text. |
| `C202_flat_witness`, `C202_stale_witness`, `C202_morph_witness` | The text is changed to capital letters before it is compared to `Db`, `Eb` … (`VirtualKemperClientUI.js:343, 350-358`), so each flat, even one the input itself has shown, sets the tuner to C. A text which does not change the note stays in the input. The checkbox for rig button morphing reads a misspelt name (`rigBtnMorh`, line 191) and is not checked although the function is on. |
| `C203_argument_witness`, `C203_offset_witness` | The argument of the mapping is removed from the name (`FunctionMeta.js:91, 146`): switches for `KemperMappings.EFFECT_STATE(…)` of different slots all show `Effect State`. A positive offset which is not a plain number is shown as `Down` (line 189). |
| `C204_nrpn_witness`, `C204_hex_witness`, `C204_note_witness` | The name of an NRPN message for an unknown parameter is only its function code, and the address is shown as (part of) the value (`VirtualKemperClient.js:255-270`): ignoring one such message hides all of them. Values which are numbers are decimal also in hexadecimal mode. Note messages have no name. |
| `C206_quotes_witness` | `Tools.stripQuotes` removes all quotes of a text (`Tools.js:105-107`), so a custom message with the text `It's` is shown as `Its`; and only the empty text in single quotes is recognized as empty (`FunctionMeta.js:200`): with double quotes, the name is empty. |
| `C207_fresh_witness` | `id` has the default `False` for 40 of the 51 actions (`definitions/actions.json`), but the button 'No Page' is only marked for `None` (`PagerProperties.js:262-266`): in a new dialog, no button is marked. |
| `C207_quotes_witness` | `#setInputValue` replaces double quotes by single ones (`ActionProperties.js:627`), but the button keeps the id as it is in the code (`PagerProperties.js:312`): after a click on a page with the id `"A"`, its button is not marked. |
| `C207_unnamed_witness` | A page of a pager without a name cannot be assigned: `#setParameters` sets the callback to `None` and the id to that of the page (`PagerProperties.js:229-232`). |
| `C207_rename_witness` | The input for the name has no handler for changes (`ActionPropertiesInternal.js:39-41`): after a new name, a pager is offered its own pages; if one of them is clicked, its button is marked, but hidden. |
| `C209_alias_witness` | If a pager is used in the inputs only through another variable (`_p = _pager`), its own name is not in the tree (`CodeExtractor.py:136` replaces it), so `Parser.getAssignment` does not find it and `_pager.proxy` is not recognized as a proxy (`ParserInputAction.js:37-38`). |
| `C209_undefined_witness` | A function of a variable which is no call gets the kind `undefined.f` (`ParserInputAction.js:40`). |
| `C210_remote_witness`, `C210_stale_witness` | The input for the rig only follows the rig and bank buttons (`VirtualKemperClientUI.js:247-255`): if the rig is chosen by control change 32 or program change, the device changes the rig but the input keeps the old number. |
| `C211_fast_witness`, `C211_faster_witness` | A tempo above 256 BPM is cut to 256 only if the value of the parameter changes (`VirtualKemperParameter.js:204`): typing 300 gives 256, typing it again gives 300, while PySwitch is told 256 both times. |
| `C211_infinity_witness` | Two taps in the same millisecond at the greatest tempo make the tempo infinite (`VirtualKemperTempo.js:68-74` does not check for 0). |
| `C212_hex_witness` | The button for hexadecimal numbers does not change the rows which are there already (`MidiMonitor.js:313-318`, unlike the buttons for bytes and values). |
| `C212_hint_witness` | If the monitor is started with its button, the hint "Click here to start monitoring..." stays (`MidiMonitor.js:54-57, 106-113`). |
| `C214_family_witness` | C214: all digits of the name of a font are put together, so a font of 40 pixels of the family B612 is shown with 61240 pixels. None of the shipped fonts is concerned. |
| `C214_nan_witness` | C214: a font without digits in its name is shown with NaNpx. |

Further observations made while reading, without a theorem: `KemperBankChangeCallback.init` tests the
display mode instead of the dim factor; `BinaryParameterCallback` changes the caller's
`value_disable` list; `fixed_text` sets `label.color` instead of `text_color`; routing APPLICATION to
APPLICATION raises; in explore mode without LED driver the report printed is `None`.
