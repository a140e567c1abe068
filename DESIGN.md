# Formal model of supla-device in Lean 4

The source under study is `/repo` (C++ / C, read as text, never compiled). The model lives in
`lean/Verif/`. Each area has

* `Verif/<Area>/Model.lean`  – total, computable definitions, each citing file and lines in `/repo`;
* `Verif/<Area>/Lemmas.lean` – helper lemmas (not claims), where needed;
* `Verif/<Area>/Props.lean`  – the property theorems, with a concrete instance beside each one
  showing that the hypotheses are met by a non-trivial case, and, where the property is false of
  the code, a theorem with the suffix `_violation` exhibiting the witness.

A theorem that proves only part of the English property carries the suffix `_partial`.

## Trusted base

* The Lean 4.33.0 kernel. No axioms are added. `#print axioms` of the claims shows only a subset of
  `propext`, `Classical.choice`, `Quot.sound`. No `sorry`, `native_decide`, `bv_decide`.
* The hand translation C++ -> Lean. Nothing mechanical ties the model to the code; the line
  citations in the comments are the means of review. State structures hold the members named in the
  cited class; `Op`, `step` and `run` only put the cited functions into a history and have no code of
  their own; examples (`ex…`), invariants and claims (`… : Prop`) model nothing.
* Undefined behaviour (out-of-bounds access, dangling pointer, signed overflow, null dereference) is
  never silently totalised where a property depends on it: such a step is a distinct outcome.

## Plan per property

| id | what is modelled | how it is proved |
|----|------------------|------------------|
| C01 | `sproto` in-buffer append and pop on byte lists, frame encoding | induction over schedule of appends/pops; invariant "delivered ++ decode(buffer ++ rest) = packets" |
| C02 | `sproto_pop_in_sdp` with 32-bit unsigned arithmetic | case analysis; false because of 32-bit wrap of header+data_size, witness; partial theorem for non-wrapping lengths |
| C03 | buffer size / allocation accounting of `proto.c` | invariant by induction over operation lists |
| C04 | `sproto_out_buffer_append`, `sproto_pop_out_data` | refinement to a byte queue; witness for the non-atomic two-step append if reachable |
| C05 | `sproto_sdp_init` counter with `BitVec 32` | closed form of the counter, injectivity modulo 2^32-1 |
| C06 | `srpc_queue_push/pop` with explicit slots and allocation flags | refinement to an abstract list queue |
| C07 | `crc16_update` bit loop | GF(2)-linearity, invertibility of a step; burst argument for all lengths |
| C08 | key/value linked list and typed setters/getters | refinement to a partial map |
| C09 | `serialize` / `initFromMemory` on bytes | round trip by induction on the element list; witnesses for the failing cases |
| C10 | `initFromMemory` with checked reads | every read goes through a checked access, theorem: never out-of-bounds |
| C11 | `eraseKey` with dangling head | witness of use-after-free, partial theorem for non-head elements |
| C12 | special sections on a byte medium with write-on-difference | read-after-write; witness for the stale CRC; partial theorem |
| C13 | registration layout | invariant: disjoint ranges; frame theorem |
| C14 | physical write list of `writeSection`, crash after any prefix | case analysis on the crash point |
| C15 | byte wear-levelling as list of physical writes with crash | invariant over histories |
| C16 | sector wear-levelling likewise | invariant over histories |
| C17 | `saveStateAllowed`/`scheduleSave` on `BitVec 32` clock | arithmetic with unwrapped time |
| C18 | `ButtonState::update` | trace invariants by induction over samples |
| C19, C20 | `Button::onTimer` | trace invariants |
| C21 | `Condition::checkConditionFor` family | trace theorem against edge detector specification |
| C22 | `LocalAction` client list | refinement to filtered list; the dispatch loop with node identities and handlers that change the list |
| C23, C24 | `Relay` | trace theorems on unwrapped time; round trip |
| C25–C28 | `RollerShutter` FSM with both pins | invariants over arbitrary histories |
| C29, C30 | `RGBWBase` | invariants, measure for termination |
| C31, C32 | `tools.cpp` text conversions | structural induction |
| C33, C34 | `Channel`, `RegisterDevice` | invariants over histories |
| C35 | `Uptime::iterate` | invariant with unwrapped time |
| C36 | `SequenceButton` | trace theorem |
| C37 | `OcrImpulseCounter::parseStatus` | decision logic + buffer indices |
| C38, C39 | `ImpulseCounter`, `SecondsCounter` | trace theorems |
| C40 | `RelayHvacAggregator` | trace theorem |
| C41 | decimal text parsers of `tools.cpp` | structural induction, value of a digit list |
| C42 | `WebServer::parsePost` and its ESP-IDF caller | simulation of a byte-wise reading, any chunking |
| C43–C47 | `SuplaDevice::iterate` round robin, `RegisterDevice`, `SuplaSrpc::sendChannelValueChanged`, colour events, HVAC setters | infinite schedules, invariants over histories, case analysis over all values |
| C48 | `OcrImpulseCounter::iterateConnected` photo pacing, light before a photo | clock arithmetic on one and two passes |
| C49 | `HvacBase::setOutput`, `updateChannelState`, `InternalPinOutput`, `clearLastOutputValue` | state invariant over all call histories; clock arithmetic for the minimum times |
| C50 | the decision part of `HvacBase::iterateAlways`: thermometer check, protections, forced off, two-point controller | refinement of a two-point controller (HEAT, COOL) and of a three-state controller (HEAT_COOL) over all histories; per-pass guarantees in all reachable states |
| C51 | schedule accessors and validation of `HvacBase`, out-of-bounds access is `none` | refinement of a map from quarters to programs; invariant over histories of changes and messages |
| C52 | `Mode`: mode, set points, manual override, timer as one state; every entry point an operation | invariant over operation lists; violations by concrete histories |
| C53 | the same model | frame lemmas for each setter, then composition: start, any number of passes, end |
| C54 | configuration as named fields and temperature slots, message handling with correction, validation, application and repair | invariant over message lists; frame lemmas for the repair |
| C55 | connection object as a state machine over passes with arbitrary outside behaviour, true time plus 32-bit clock | invariants over histories; a waiting invariant for back-off; ghost-free specification functions over the visible results |
| C56 | packing of texts as byte lists with explicit bounds, registrations as a list | reading the message back gives the texts; invariants over registration histories |
| C57 | both parsing loops over 64 field bits, the nine handlers and reporters on an option-valued key store | loop invariants over bit positions; set/get, get/set laws per field lifted to messages by independence |
| C58 | the exchange as a state machine with the 32-bit clock, ghost marks for "not yet sent" | inductive invariant over histories; progress by induction over quiet passes |
| C59 | the exchange of one channel as a state machine over an abstract class, a server and two ordered queues around it, two concrete classes | inductive invariants; the invariant of the pair lists the five shapes of a conversation; faithfulness of the classes |
| C60 | setters, resets and the computation of the channel value for one current and one power; the two clocks of the publication | invariant "not set means zero"; integer arithmetic of the two scales; invariant relating the time of reading and of publication |
| C61 | the meter as an instance of the abstract class of C59, with the 64-bit masks and the corrections of the thresholds | faithfulness, then the general theorem; case analysis for the thresholds |
| C62 | the two preambles, the one copy of the state with its size and checksum, the dry run that checks the size, saving byte by byte, loading with and without channel numbers | invariant over histories of saves and restarts; prefix of the write list for the power loss; the burst theorem of the checksum |
| C63 | the initialisation of the trigger (which operation is moved to the click, which triggers replace local operations), the switching of all registrations on a configuration, the queue of actions | pointwise effect of a configuration on a registration, so that only the last one matters; induction over the bits in the queue |
| C64 | the loop over the name with its array and the bytes still to be skipped, the name with the address | induction over the name with the room as invariant; refinement to a short specification of the host name |
| C65 | mode, restart and request fields of the device, one pass with network and update results as inputs, all actions | invariants over all histories; timing with the 32-bit clock; induction over passes |
| C66 | a session from start to loss of power with the key in flash, in memory and in the element, and the delayed save | each session changes the stored counter according to its kind; induction over histories |
| C67 | the prefix test, the copy into the topic buffer, both `strtok_r` calls and the look-up | exact characterisation of the token, both directions |
| C68 | every request handler as a function from topic part and payload to the calls on the channel | comparison of texts = equality up to case; tables of documented commands; number lemmas of C41 |
| C69 | the topic buffer, prefix, object identifiers, the bits of changed channels and the pass that publishes them | lengths; what is in front of the first separator is determined; induction over the pass |
| C70 | the handler of service requests in the protocol, of the device and of the library elements, the list of pending answers | case analysis; refinement of the list by "last set, not cleared" over all histories |
| C71 | the second counter of a light relay | invariant with the true time of the timestamp, over all histories |
| C72 | the uptime counters and the cause of a disconnection | invariant over all histories |
| C73 | the seconds counted by the clock, setting it, asking the server | induction over the ticks |
| C74 | the analysis of the channel report | induction over the report |
| C75 | the blinking LED with limits, pauses and repeats | invariants over all tick histories with the true time of the last switch |
| C76 | the choice of the sequence by the status LED; loading, storing and setting its mode | case analysis, induction over the protocols; invariant over histories of settings |
| C77 | the escaping of the page sender and the Wi-Fi, protocol and update elements as text generators | the markup characters of the page as a function of the switches only; a small specification of how a browser reads tags, attributes and entities |
| C78 | the same elements, their handlers and setters, composed with the form parser of C42 | a browser specification (tokens, fields, form encoding); page piece by piece submits the stored values, composed with the parser theorem and the handlers |
| C79 | pointer-level list: constructor, destructor, walk; reading a dead object has no outcome | invariant over any history: the pointers go through exactly the living objects |
| C80 | the loop of `iterate` with the saved pointer and the invalidation mark | calls are a prefix of the endless repetition of the list |
| C81 | `LoadConfig` (two loops), set-up requests, modes | closed form of both loops; corollaries |
| C82 | `isMinimalConfigReady` with the interface taken before loading | specification over the interface really used; negation by witness; exactness from the second call |
| C83 | the 500-byte buffer, `log`, `clear`, `getLog`, the loop on the page, `status` | invariant: the buffer is a prefix of the lines with zeros; closed form of the walk |
| C84 | bistable relay with coil and latch; timer of `Relay`; restart | run lemmas for pulses; invariants for spaced commands and passes |
| C85 | nettle `sha256.c`, `sha256-compress.c`, `MD_UPDATE`, `MD_PAD`, `write-be32.c` word for word; the specification is FIPS 180-4 written from the standard (rounds as a recursion on the schedule `W`), checked on "abc" | the unrolled lines are the standard round on a rotated view of the variables; the circular buffer holds the last 16 words of `W`; the context holds the hash of the whole blocks so far; padding by cases on the residue of the length |
| C86 | `RsaVerificator`, `_rsa_check_size`, PKCS#1 encoding into uninitialised memory, `_rsa_verify`, `mpz_powm` with its branches on limb counts and the shifted modulus; the specification is RFC 8017 written from the RFC | square-and-multiply is congruent to the power by induction on the bits; the final reduction from the limb counts; the buffer cut at the places written; with C85 for the hash |
| C87 | `EspIdfOta::iterate` from the query to `esp_ota_set_boot_partition`, `verifyRsaSignature` with its 4096-byte reads; the platform is a `World` of arbitrary answers | the pieces hashed are the program by induction on the loop; the cut of the file into program, signature and footer is unique; then C86 |
| C88 | the query building with `stringAppend`, the answer loop that reads every piece to the start of the buffer | the query by inversion of the appends; the loops by induction on the reads; witnesses by evaluation |
| C89 | mini-gmp.c limb by limb (`Verif/Gmp`): wrapping word operations, half-limb products, `mpn_{add,sub}` loops, shifts, `gmp_clz`, `mpn_invert_3by2`, `gmp_udiv_qr_3by2`, `mpn_div_qr_pi1`, `mpz_powm`, `mpz_import`, `mpz_cmp`, `mpz_sizeinbase`; limb width `2h` and width `u` of `unsigned` are parameters. Moduli of one or two limbs are not modelled (an accepted key has at least 62 octets) | loop invariants over limb lists; Möller–Granlund 3/2 quotient theorem for any base; refinement of the number-level check of C86 |
| C90 | `srpc_getdata` for every call of the device build (size rules, copy into calloc/malloc memory) and the switch of `messageReceived`; handlers arbitrary | the messages as a separate specification (octets of each structure); forward by splitting the memory field by field, backward by splitting the packet, definedness from the two |
| C91 | The readers of fronius.cpp, afore.cpp and solaredge.cpp character by character, `sscanf`/`strtok` on the collected line, the request text; conversion to numbers and time-outs are not modelled | Run over the characters as a fold over lines (`Holds`, `Row`, `After`), then the scan of each line against an independent description of the answer |
| C92 | Value, text, refresh, counter, reset, save and restart of general_purpose_channel_base.cpp and general_purpose_meter.cpp; doubles are rationals or NaN with an arbitrary rounding function of IEEE accuracy; `%f` is a parameter; infinities are not modelled | Relative error analysis by factors within (1-2^-53)^k; induction over passes and operations |
| C93 | group_button_control_rgbw.cpp over the lights of C29/C30; members are different objects; attaching to button events is not modelled | Brightness effects of each command by class of light, then induction over members and histories |
| C94 | `SuplaSrpc::{onLoadConfig, onInit, initClient, setNetworkClient}` and the connecting part of `iterate`; `setServerName` with the correction of names; what the ESP clients do with the certificate, over an abstract relation "signed by" | invariant over all sequences of events that every attempt uses the same client, then case analysis of the settings |
| C95 | the getters of `condition_getter.cpp` over the model of the electricity meter and of the conditions; sums of `int` with overflow as an outcome | from the theorems about the published values (C60) and about crossings (C21); invariant that a power never set has no bit |
| C96 | the pulse layer of `bistable_roller_shutter.cpp` and `tripple_button_roller_shutter.cpp` on top of the roller shutter model; levels of the outputs as a log | invariant over histories: either no button is held and presses match releases, or exactly one is held since the last press; the drive is a separate toggle machine run on the rising edges |
| C97 | what a browser submits for untouched number fields, sliders, lists and check boxes (from the HTML standard); the fields of 14 page elements and the handlers of what comes back; printing with any rounding to nearest; over the models of the roller shutter and the thermostat | per element: what is submitted is read as what is stored; thermostat page: an invariant along the fields (settings not yet received from check boxes are off), then storing the same configuration is the identity and the mode command repeats the current mode |
| C98 | the temperature drop sensor: ring of 60 measurements, average of the 6th to 26th last, detection, recovery, expiry, over histories of passes with wrapping clock | refinement of the ring to the list of readings (`run_holds`), exact condition for opening, invariant with ghost start of the report |
| C99 | the binary sensor: reading interval, inversion by the server and its storage, turn-on and turn-off events | invariants over histories of passes, configurations and registrations |
| C100 | bit reading and decoding of thermocouple chips and of the Si7021 frame, the retry filters of DS18B20, DHT, SHT3x, Si7021, BH1750, MAX44009, AHT, BME280 | words of the chips written from their data sheets; decoding exact for all words; each filter equals one specification by induction over attempts |
| C101 | the ring of five echoes, the mean without smallest and largest, mapping and limits, the count of failures as a char (signed or not); conversion to centimetres up to rounding of double | the ring holds the newest five echoes (induction); arithmetic of the trimmed mean; monotonicity |
| C102 | handlers of the number fields (as in C97) | `Denotes` says which number a text is; reading is exact by the lemmas of C41; each handler by cases |
| C103 | InternalPinOutput: switching, polarity, durations, start-up, requests of a thermostat | induction over passes with the clock modulo 2^32; induction over histories |
| C104 | frames of the Somfy remote: fields, checksum, obfuscation, bits on the line, rolling code, byte order of the processor | an independent receiver is given the wave; round trip for all inputs |
| C105 | the factory test: stages, checks, timeout, button, ends | invariant over histories relating stage to the events seen; completeness by phases |
| C106 | parsers with refresh time and validity shared by sensors, counters, meters; lines and topics | invariant over histories of readings: the content is that of the last refresh |
| C107 | meaning of readings from the manual, states, action triggers | relation for the meaning; actions equal those of the compressed history |
| C108 | file source with expiry and failures; storage in a file with commits, refusals, cuts | induction over histories; disk invariant |
| C109 | the configuration on LittleFS: list, files, certificate | composition of the key-value model with a map of files; claims per operation for every state |
| C110 | the bit fields of both formats, the conversion with the unset bits as argument | arithmetic of the fields; both formats specified as multiples of 2^-1074 |
| C111 | requests, saving, loading and restarts of a light relay | invariant over all histories; round trip through the storage |
| C112 | saveWithDelay/saveIfNeeded with the memory and flash copies of all settings | invariant over histories relating the pending save to the time of the change |
| C113 | set-up of pins and PWM channels and the numbers written by RGBWLeds, RGBLeds, DimmerLeds and the PCA9685 expander | induction over the list of lights; arithmetic |
| C114 | The shutter itself: constant speed while an output is on, ends; the state of the roller shutter of C25-C28. | Accuracy of the computed position for every rounding exact to 2^-17; invariant relating true position, last computed position and number of movements over all histories of commands and passes; separate induction over the stages of a full movement. |
| C115 | `readValuesFromDevice` of the four PZEM drivers with the setters and resets of the meter, in rationals with any rounding `F` of each product. | Induction over the modules (`Round`) and over the history (`Inv`: nothing measured, all zero); truncation within one unit; integer square root for the reactive power. |
| C116 | Table of devices, channels with address, retry counter and last value, saved addresses; searches, conversions, passes, resets, saves and restarts in any order. | `Sep` (distinct addresses in channels and flash) by induction over histories; `ChOk` ties counter and value to the log of readings; `Own`, `Table`. |
| C117 | interrupt handler, 10 ms timer, state and time stamp of `InterruptAcToDcIo` (one pin); level changes, waits and timer calls as events | invariants of time stamp and state by induction over the events |
| C118 | `readSensor`, `getTemp`, `getHumi` and the publication of both drivers; doubles as rationals | data sheet formulas as separate specification; induction over readings |
| C119 | read loop of `sendPhotoToOcrServer`, data event handler and result of `getStatusFromOcrServer`; the HTTP client as list of pieces | buffer content as function of the pieces, induction over the pieces |
| C120 | `HX711` with the described part of the library; floats as rationals | weight as proportion of readings; case analysis of the display, histories of operations |
| C121 | `connectImp`, `writeImp`, `readImp`, `connected`, `stop` of the Linux client with the answers of the system as parameters; the reaction of `srpc_iterate_device` and `dataWrite` | induction over addresses, operations and messages |
| C122 | `SpiffsStorage`, `LinuxFileStorage`: init, read, write, commit; file system as content of one file, writes cut at any byte | list lemmas; case analysis of the outcome of a commit; induction over later commits |
| C123 | `reconnect_client`, `open_nb_socket` (non-TLS), topics and stored messages, `getContent` | invariant on the delay over all histories; induction over address, topic and message lists; the TLS calls and the MQTT-C library are not modelled |
| C124 | `NvsConfig` (init, getters, setters), sizes in `KeyValue`, `CustomTextParameter` | induction over histories against a newest-first specification; the NVS library is taken as its documentation says |
| C125 | Values of the file as a tree, getters of the Linux configuration, tables of named objects, numbering of channels on top of the channel registry | Case analysis; invariant of the name tables over the sections; induction over the list of channels with the exchange theorem of the registry and the pigeonhole principle |
| C126 | Taking over the settings of a master thermostat with the five second wait, on top of the thermostat mode model | Case analysis of taking over; invariant over the passes; induction showing that the wait is not restarted while nothing changes, or is restarted for ever |
| C127 | The synchronisation of both weekly schedules with a server over an ordered connection: flag, stored flag, handshake, sending, answers, restart | invariant over histories with a last word per schedule; violations by evaluation |
| C128 | Default weekly schedule, load of both schedules and choice at a start | for every function and all limits: the loops over the week by induction, slot by slot; the choice by cases over what is stored |
| C129 | handleAction of the thermostat on top of the mode model | induction over presses and passes with an invariant on timer, mode and remembered manual mode |
| C130 | Saved and restored state of the thermostat and the end of onInit | invariant over all histories (no override outside the schedule), then equality of states; induction over passes without a clock |
| C131 | Wi-Fi and Ethernet interfaces of the ESP32 with an explicit driver (assumption stated in the files) and a queue of events handled by another task; the network part of the main loop | invariant: what will be believed after the waiting events is what is; induction over all histories |
| C132 | One thermostat with its configured pump and source, its registration flag, the set-up defaults, the initial configuration, and the table of aggregators of the relays | invariant over histories: registered ⇒ used, flag ⇒ all used are registered; ∀-statements for the lost registration, witnesses for the violations |
| C133 | State and meter messages per channel type, retained store of the broker, connection events, pass, value and function changes | invariant over operation lists: a settled channel has all its messages at the broker; frame theorem for topics without message |
| C134 | Formats and arguments of all discovery documents (extracted from the source text), which documents a channel gets, action messages, connection message and last will | verified parser turns each format into members (kernel evaluation over the finite list of formats, holes symbolic), then theorems for all texts; unique decoding of the rendered JSON |
| C135 | `Clock`, the clock chips, the page and the command to set the time; `mktime`/`localtime_r` as functions on all integers | `localtime` and `mktime` proved inverse, `localtime (n+1) = next (localtime n)` for a successor written from the calendar, Zeller for weekdays; invariant over worlds with the true time for the chip |
| C136 | `setNewValue` for temperatures and humidities, corrections, `getTempInt16`, DHT, AHT, BME280, polling | arithmetic on rationals with truncation, induction over reading histories and polling times |
| C137 | `Relay` with `timerUpdateTimestamp`, `iterateConnected`, `updateTimerValue`, `onRegistered` and what the server was told (`Relay/Remaining.lean`); the thermostat's countdown and the extended value encoding are not modelled | invariant over all histories: what is marked as told is what the server knows; a command leaves the timer alone, stops it or starts it now |
| C138 | `CmdRelay`/`CustomRelay` and `VirtualRelay` over the relay model (`Relay/Command.lean`): commands run, timer, reading every 100 ms; the text of commands and payloads is not modelled, the source is a number | step-wise equality with the relay model, lists of commands by induction, freshness invariant for the reported state |
| C139 | the two tasks of `esp_mqtt.cpp` as a transition system: three locks, where each task is, events, messages of the setup numbered; the buffers of an arriving message | invariant over all schedules (who has which lock, what was sent over the present connection), a rank for termination; concrete schedules for the false claims |
| C140 | Channel state messages: fields of the answer, reports of drivers, interfaces, device times, lamps; periodic sending; battery files of Linux sensors (`Verif/Info`) | history specification (last report) by induction over reports; frame lemmas; refinement of the 32-bit schedule to unbounded time by induction over turns |
| C141 | `iterateConnected`, `updateTimerValue`, `onRegistered`, `getRemainingCountDownTimeSec` of the thermostat on top of its modes (`Hvac/Told.lean`) | the end of the countdown in every operation (frame lemmas); invariant over histories: what is marked as told is what the server was told |
| C142 | `loadDeviceConfig` (identity), the checks of `begin`, `resetToFactorySettings` and the three `generateGuidAndAuthkey` as lists of single writes (`Identity/Model.lean`) | invariant over histories in which any write may be refused and power may fail between any two: what was used is on the medium; pigeonhole for the Linux seed |
| C143 | reading, saving (byte by byte), resetting and incrementing the 64-bit counter of pulses word by word, with pulses of the timer in between (`Counter/Torn.lean`) | induction over the words: what is read, in both orders, against the value at the begin and the end; exact result for one pulse |
| C144 | the shutter of C25 to C28 with single commands, and with commands split into their two assignments and placed inside a timer pass (`Verif/Shutter/Obey.lean`) | the pass that takes a command computed in closed form; waiting out the pause by induction over the schedule; a state without a waiting command never starts the motor (invariant over passes) |
| C145 | function, stored key in memory and in permanent storage, delayed save (`Verif/ChanCfg/Keep.lean`) | invariant: the running function is what the key in memory gives, and what is not saved has a save pending; a second invariant between the message and the start |
| C146 | `CustomRelay` of the Linux port with its settings, the two templates and the three outputs; `std::stoi` and `snprintf` on character lists | characterisations by induction over the texts, an independent reader of JSON strings; induction over histories |
| C147 | offering of fields to the page elements, section excluded by each page, `onProcessingEnd`, flags that outlive a post; broken-off posts | frame lemmas per element, induction over elements, fields and posts |
| C148 | the table of srpc.c against the comments of proto.h, the check before each call, version of layer, connection and header, begin, registration, version error | invariants over all histories; the table by cases on membership in the 120 rows |
| C149 | copy in memory, flash, mark for changes; write, commit with its result, restart; the library EEPROM as documented | closed form of a write by induction; prefix consistency by induction from the end of the history |
| C150 | mode, latch and surrounding level of the output pin, source, logic, choice of the timer | update analysed by cases; output mode kept over all histories |
| C151 | the rounds of supla_log with an oracle for memory; the line of the Linux port with level and time | functional induction over the doubling; digits of decimal numbers |
| C152 | pads with registers and hold latch, `pinMode`/`digitalWrite` of the ESP-IDF port, order of calls in the elements that own outputs | registers follow the calls by induction; what a pad shows after the last call by cases of that call |
| C153 | both tables of channel types, `setType`, `getChannelType`, `getLastTemperature` | cases over the table; every other integer excluded at once |
| C154 | `AutoLock`, the mutex of the ESP-IDF port, the events on lock and data of each method of the client and the LEDs, tasks under a schedule | an order of events kept by every method, kept by every step of every task; induction over calls, loop rounds and schedules |
| C155 | the periodic checks of the meters with each call of the clock as a reading of its own | induction over rounds; for the skipped reading a schedule for any number of periods |
| C156 | the watchdog element, the refusals in `status`, the chip as a timer | invariant on timeout and idle time over lists of events |
| C157 | `crc8` over lists of bytes | linearity and injectivity of the eight steps of a byte; the change is carried through the rest by induction |
| C158 | `addActionTriggerActions`, the maps of conditions, `registerActions`, `sendActionTrigger` | induction over the elements of the configuration; bits of the announced and waiting sets by induction over actions |
| C159 | `CmdOutput` and `HvacParsed` under the model of `HvacBase::setOutput` | calls of one setting refine `Hvac.write`; invariant between last command and value by induction over settings |
| C160 | `FileStateLogger` and the file on the disk, with kills | induction over logged lines and over histories |
| C161 | address of updates from the configuration to the buffer of `SwUpdate` | bytes of `strncpy`, induction over addresses set |

## Findings: properties that are false of the code

Each has a machine-checked witness; the theorem is named here. The true part is kept as a `_partial`
theorem beside it.

| id | what goes wrong | theorem |
|----|-----------------|---------|
| C02 | header size + `data_size` wraps in 32 bits, so a packet longer than the buffer passes the length check | `Proto.delivered_were_sent_violation` |
| C04 | the two-step append (packet, then end tag) is not atomic: when only the first fits, the tag is missing in the stream | `Proto.out_fifo_violation` |
| C09 | an empty blob is lost on reload; a blob of 65536 bytes or more is stored with a truncated size field | `KeyValue.survives_reload_violation`, `survives_reload_size_violation` |
| C10 | a stored string without terminator makes later reads run past it | `KeyValue.load_safe_violation` |
| C11 | erasing the first key leaves the list head dangling | `KeyValue.erase_violation` |
| C12 | writing bytes already on the medium does not repair a wrong CRC: success is reported but the section does not read | `Storage.write_read_violation` |
| C14 | reads never repair a damaged copy: a second power loss loses both copies; a half-written main copy may carry the old CRC | `Storage.crash_twice_violation`, `crash_retry_violation`, `crash_mixture_violation` |
| C15 | a write count of 1 in the next slot is always taken as newest, so a clean reboot after the save with count 2 restores the previous state | `WearByte.reboot_loses_save_violation` |
| C15 | a torn main address record makes boot start from the first slot with state size 0; the intact backup record is not used | `WearByte.torn_record_violation` |
| C15 | slots are counted without the 7-byte preamble; with room for 1.5 slots both slots of the pair coincide | `WearByte.one_slot_violation` |
| C17 | `scheduleSave(delay)` with `delay > period + 1` sets the last-write time in the future, whereupon the next poll saves at once | `Storage.throttle_violation` |
| C18 | 2^32 ms after the last report the debounce window re-opens and a bounce in it is not seen by the noise filter | `Button.debounce_wrap_violation` |
| C19 | a click whose last change falls on the millisecond where the 32-bit clock reads 0 is never reported | `Button.clock_zero_violation` |
| C20 | after a late timer pass missed hold repeats are raised at consecutive passes, closer than the repeat time | `Button.repeat_spacing_violation` |
| C20 | after 65536 repeats the 16-bit hold counter wraps and a hold event is raised at every pass | `Button.hold_wrap_violation` |
| C22 | `disableAction`/`enableAction` with an event or action outside -1..65535 act as if it were number 0 | `Actions.out_of_range_violation` |
| C23 | if no pass comes for 2^32 ms the elapsed time wraps and the relay stays on | `Relay.timed_on_wrap_violation` |
| C24 | a state saved in the millisecond the timer is due is restored as on without timer | `Relay.restart_due_violation` |
| C24 | with countdown disabled and a minimum duration, an off relay without timer comes back with one and turns itself on | `Relay.restart_turns_on_violation` |
| C26 | a configuration that flips the motor direction while the motor runs drives the opposite output with no pause | `Shutter.pause_config_violation` |
| C26 | a stop at clock reading 0 sets the pause start to 0, which means "no pause" | `Shutter.pause_clock_violation` |
| C27 | new travel times during a movement replace the position by 0 or leave it unknown | `Shutter.position_jump_violation` |
| C27 | a movement can reach a conversion of a negative or NaN `double` to `uint32_t` | `Shutter.position_undefined_violation` |
| C28 | removing the travel times during a movement to a position leaves the motor on for ever | `Shutter.never_stops_violation` |
| C29 | `setMaxHwValue(255)` leaves the brightness limits at 1023 (and `setBrightnessLimits` with a higher limit calls `setMaxHwValue` with the old value), so the device is given more than the maximal hardware value; with `setMaxHwValue(1)` the scaling divides by zero | `Rgbw.device_range_violation` |
| C30 | brightness 0 set "without turning on" is remembered, the light then cannot be switched on | `Rgbw.restore_zero_violation` |
| C30 | iterating white and colour brightness together copies the colour brightness without remembering it | `Rgbw.restore_sync_violation` |
| C32 | `urlEncode` with size 0 still writes the terminator; `urlDecodeInplace` writes behind a buffer without terminator, and takes the terminator for a digit of an incomplete escape, so that stale bytes behind it become part of the text | `Tools.encode_safe_violation`, `Tools.decode_safe_violation`, `Tools.decode_meaning_violation` |
| C41 | signed overflow for numbers that do not fit; also for `-2147483648` and, in `floatStringToInt`, for results from 2147483600 on, because the character code is added first | `Tools.int_round_trip_violation`, `Tools.int_safe_violation`, `Tools.float_fits_violation` |
| C42 | the ESP-IDF port writes `content[ret] = 0` before looking at a negative `ret` | `Web.receive_safe_violation` |
| C33 | `setValidityTimeSec` does not mark the channel; the server keeps the old validity until the value changes | `Channel.validity_not_reported_violation` |
| C34 | `Channel(-2)` is accepted and registered; `setChannelNumber` accepts numbers above 127 | `Channel.negative_number_violation`, `number_above_limit_violation` |
| C43 | the 50 ms rate limit is shared by all channels while the round robin position is lost on a blocked pass: a first element that changes all the time starves all others | `Channel.starvation_violation`, `first_element_starves_the_rest` |
| C44 | a channel that was refused a number stays linked: registration describes it (number -1) and leaves out a proper channel; deleting a channel with a number above 127 leads to a null dereference | `Channel.refused_channel_displaces_violation`, `message_null_violation` |
| C45 | with MQTT connected, a value that changes between the registration message and its answer never reaches the SUPLA server | `Channel.second_protocol_loses_update_violation` |
| C46 | changing a light from white to colour raises ON_TURN_ON and then ON_TURN_OFF although it stays on | `Channel.turn_off_while_on_violation` |
| C47 | `setHvacIsOn(false)` does nothing when the output was set by percentage (also in `clearHvacState`) | `Channel.hvac_off_violation` |
| C35 | two passes exactly one hour apart lose the hour (`>` compares with the last counted second, not the last pass) | `Counter.uptime_hour_violation` |
| C36 | a press held 65.6 s counts as 100 ms (16-bit interval); intervals under 20 ms never match (unsigned underflow); a 30-entry sequence matches a 31-interval rhythm; a 257-interval rhythm matches a 1-interval sequence (8-bit counter); with a margin over 50 % a pause within the margin ends the rhythm | `Sequence.long_hold_violation`, `short_interval_violation`, `full_sequence_violation`, `counter_wrap_violation`, `pause_cut_off_violation` |
| C37 | measurement text of exactly 100 characters writes one byte past the buffer; a clock set back by two intervals makes any jump plausible; after a restart the counter is 0 until the meter changes | `Ocr.hundred_characters_violation`, `clock_set_back_violation`, `counter_lost_after_restart_violation` |
| C38 | a pulse is lost if it comes within the debounce delay after a multiple of 49.7 days of silence | `Counter.impulse_lost_after_silence_violation` |
| C39 | DISABLE twice counts time twice, ENABLE again loses up to a second each time, and the seconds counter never publishes its value | `Counter.double_disable_violation`, `repeated_enable_violation`, `seconds_never_shown_violation` |
| C40 | a relay switched by hand is not corrected (default mode); with the other mode the relay may stay on up to 5 s after demand ends, and commands are repeated every second | `Aggregator.manual_off_not_corrected_violation`, `stale_reading_violation`, `repeated_command_violation` |
| C48 | if the first photo fails later than 15 s after start the retry waits a whole interval; if it fails earlier it is retried at every pass | `Ocr.first_failure_waits_violation`, `early_failure_hammers_violation` |
| C16 | formatting writes the tag of the main index sector twice (line 376) and never the tag of the backup sector, so boot never accepts the backup; a single power loss while the main sector is rewritten at the return to the first slot loses the state and reformats | `WearSector.backup_never_valid`, `wrap_window_violation`; `crash_safe_with_backup_tag` shows the scheme is sound once the tag is there |
| C16 | with two data sectors and a slot of almost a sector the slot in use begins in the sector erased for the next save; with three it takes two power losses | `WearSector.two_sectors_violation`, `three_sectors_violation` |
| C16 | the slot CRC is written but never checked on load; `isDataDifferent` answers "equal" when the size exceeds the slot size; nothing limits the number of slots to the bitmap (8 per byte of the rest of the sector) | read only (hypothesis `Geo.Ok.cap`) |
| C49 | changing the heating/cooling subfunction clears the time stamp, so cooling starts at once although the minimum off time is 600 s | `Hvac.subfunction_change_violation` |
| C49 | a cooling output that takes a percentage is given a positive value but only a negative one is reported as cooling | `Hvac.percent_cooling_violation`, `percent_heat_cool_violation` |
| C49 | a cooling-only thermostat with two outputs asks the primary one whether the secondary is on/off | `Hvac.mixed_outputs_violation` |
| C50 | switched OFF, the output is still driven with the error value when the auxiliary (or differential) thermometer has failed; the forced-off sensor is ignored likewise | `Hvac.off_aux_sensor_violation`, `off_differential_violation`, `forced_off_violation` |
| C50 | after power on, with overheat protection enabled and the room within the hysteresis of the limit, the thermostat never cools, whatever the set point | `Hvac.overheat_lock_violation` |
| C50 | the auxiliary minimum switches the heater on in COOL mode | `Hvac.aux_wrong_mode_violation` |
| C50 | the difference of two thermometers wraps at 16 bits | `Hvac.differential_wrap_violation` |
| C51 | slot number 672 passes the range check and is read beyond the table | `Hvac.Schedule.index_672_violation` |
| C51 | a server message that uses program number 5..15 makes validation read outside a 4-element stack array | `Hvac.Schedule.validation_violation` |
| C51 | `setProgram` does not check the program number: write outside the array | `Hvac.Schedule.set_program_bounds_violation` |
| C51 | a program in use can be set to "not set"; the stored schedule is then refused at the next start and the thermostat switched off | `Hvac.Schedule.remove_used_program_violation` |
| C52 | the default set points 21.0 and 25.0 are set without regard to the limits | `Hvac.Mode.default_outside_limits_violation` |
| C52 | "lower the temperature" without a set point wraps a 16-bit number and asks for the highest temperature | `Hvac.Mode.button_wrap_violation` |
| C52 | the server can set heating above cooling; the controller then heats and cools in turns | `Hvac.Mode.gap_violation`, `Hvac.Mode.fight_violation` |
| C53 | a differential thermostat without history stays off when turned on, and a temperature button turns it off | `Hvac.Mode.turn_on_diff_violation` |
| C53 | heat for an hour, then off for an hour: ends in heating for ever | `Hvac.Mode.timer_chain_violation` |
| C53 | weekly schedule for an hour: the timer is forgotten in the next pass | `Hvac.Mode.timer_weekly_violation` |
| C53 | a timed temperature during the schedule stays after the time is over | `Hvac.Mode.timer_override_violation` |
| C53 | a duration of 2^31 s or more is a permanent change | `Hvac.Mode.timer_too_long_violation` |
| C54 | a read-only protection temperature is changed by the repair that follows a server message | `Hvac.Config.readonly_temp_violation` |
| C54 | the main thermometer of a message is not validated | `Hvac.Config.main_thermometer_violation` |
| C54 | a thermostat can be configured as its own master | `Hvac.Config.own_master_violation` |
| C55 | a "wrong protocol version" message frees the protocol object while its message loop is running (use after free) | `Srpc.version_error_violation` |
| C55 | the pass that drops a silent server still returns "connected" | `Srpc.true_after_timeout_violation` |
| C55 | an activity timeout of 256 s becomes 0 s: no pings, a healthy connection is dropped every 10 s | `Srpc.timeout_256_violation` |
| C55 | the counted time without connection wraps at 655360 s, a longer automatic reset never happens | `Srpc.fail_time_violation` |
| C56 | a notification with a title over 100 or a body over 255 characters is silently dropped while the call returns true (the code means to cut it) | `Notify.long_title_violation`, `Notify.long_body_violation` |
| C57 | a message with the home screen delay type and the power LED: the parser moves on 2 bytes instead of 1, the power LED setting is skipped and "true" answered | `DevCfg.power_led_violation` |
| C57 | fields announced behind the last byte, unknown ones included, are accepted | `DevCfg.trailing_field_violation`, `DevCfg.missing_field_violation` |
| C57 | an out-of-range status LED type is stored and locks that setting for the server for ever | `DevCfg.led_stuck_violation` |
| C57 | a home screen message with two contents stores "off" even if "off" is not available | `DevCfg.two_contents_violation` |
| C57 | volume never set: reported as 0 %, treated as 100 % when the server sets it; the echo of the report mutes the device | `DevCfg.volume_default_violation`, `DevCfg.volume_echo_violation` |
| C57 | when the server knows fields the device does not, the device sends a message with those fields but without their bytes | `DevCfg.unknown_report_violation` |
| C58 | a local change made during an exchange is forgotten when the answer takes over a second | `DevCfg.slow_answer_violation` |
| C58 | the answer to an exchange about unequal fields clears the mark of a local change it did not carry | `DevCfg.field_exchange_violation` |
| C58 | a local change made when the clock reads 0 is never sent until a restart | `DevCfg.change_at_zero_violation` |
| C58 | a server setting arriving during an exchange is answered "true" and ignored | `DevCfg.ignored_ack_violation` |
| C59 | the answer to an earlier message forgets a setting changed after the message was sent | `ChanCfg.late_answer_violation`, `ChanCfg.second_change_violation` |
| C59 | a message about a disabled channel forgets a waiting change | `ChanCfg.disabled_violation` |
| C59 | a refused OCR configuration keeps a waiting change from being sent, and makes the device overwrite the server at the next connection though nothing was changed on it | `ChanCfg.refused_ocr_violation`, `ChanCfg.false_change_violation` |
| C59 | changes on both sides at the same time swap: the device keeps the server's, the server the device's | `ChanCfg.crossing_violation` |
| C59 | a refused configuration is sent again when the channel is disabled and enabled, and by a general purpose channel at every message with other defaults | `ChanCfg.insisting_violation`, `ChanCfg.gpm_insists_violation` |
| C59 | a correction of a thermometer finer than 0.1 or beyond 50 is answered "true" and silently changed | `ChanCfg.therm_rounding_violation` |
| C59 | a correction taken over from the server is added twice when the message is repeated between the report and its answer | `ChanCfg.added_twice_violation` |
| C60 | a power below -21474.836 kW wraps around and is shown positive | `Em.negative_power_violation` |
| C60 | above 21.47 kW on any phase MQTT gets no power at all, and the function that reads it overflows | `Em.power_hidden_violation`, `Em.power_overflow_violation` |
| C60 | a reading that takes less time than the last one, and the first after the start, is not published; the channel keeps the old value until the next change | `Em.jitter_violation`, `Em.start_violation` |
| C61 | a message with two types of current transformer leaves the meter with none and without telling the server | `ChanCfg.two_types_violation` |
| C61 | the minimal distance of the LED thresholds is not kept: equal thresholds are accepted | `ChanCfg.apart_violation` |
| C62 | a checksum of 0 turns the check off, so a state of which half was written is loaded | `SimpleState.zero_checksum_violation` |
| C62 | without wear levelling a power loss during a save loses the state | `SimpleState.lost_violation` |
| C62 | a state that grows without a restart is written over its own beginning and lost | `SimpleState.growth_violation` |
| C62 | a power loss between the tag and the version of a new storage on flash disables it: no later start repairs it | `SimpleState.torn_header_violation` |
| C63 | an element with operations of its own for the press and the click: the press operation is done twice per click and the click operation never | `Trigger.second_click_violation` |
| C63 | an always-enabled press operation is also done on the click while a trigger is in use | `Trigger.always_twice_violation` |
| C63 | a trigger on a button whose press element was destroyed calls a method of a null pointer in `onInit` | `Trigger.null_handler_violation` |
| C63 | an operation that the program had disabled is enabled by the trigger | `Trigger.enabled_again_violation` |
| C63 | with all triggers published, an action that is no trigger blocks the queue for ever: the configuration is never requested | `Trigger.stuck_violation` |
| C64 | a device name that begins with '{', '\|', '}', '~' makes the host name loop read before its array | `Hostname.brace_violation` |
| C64 | a device name without a printable character makes the name of the network interface look at the byte before the array | `Hostname.empty_violation` |
| C64 | without address digits the host name may end with '-' | `Hostname.trailing_violation` |
| C65 | a restart asked for in more than five minutes happens after five minutes, with the message of the configuration mode | `Life.restart_early_violation` |
| C65 | a factory reset asked for when another restart is due restarts the device without erasing anything | `Life.reset_lost_violation` |
| C65 | the restart without connection counts passes, not time: with passes every second a limit of 60 s takes ten minutes | `Life.connection_reset_late_violation` |
| C65 | a configuration mode entered when the clock reads 0 never times out | `Life.config_at_zero_violation` |
| C65 | a second request for the configuration mode takes the timeout of the first away | `Life.repeated_request_violation` |
| C65 | in the offline mode a check for updates leaves the device in update mode for ever | `Life.offline_update_violation` |
| C66 | the counter of power cycles is cleared in flash only a second after the timeout: power lost in this second counts as a short session | `Cycles.unlucky_violation` |
| C66 | when start and first pass are at clock reading 0 the timeout is over at once and the counter is cleared | `Cycles.zero_violation` |
| C66 | without the option, restarts by the device itself count as power cycles | `Cycles.software_restart_violation` |
| C67 | a topic of 256 or more characters is copied without terminating zero and read on behind the buffer | `Mqtt.dispatch_long_violation` |
| C67 | a channel number of ten digits in a topic overflows a signed integer | `Mqtt.dispatch_number_violation` |
| C67 | a channel "number" that is no number is taken as channel 0 | `Mqtt.names_channel_violation` |
| C68 | a colour light subscribes to `execute_action` but ignores it | `Mqtt.subscribed_understood_violation` |
| C68 | `turn_on` and `turn_off` are handed to a dimmer twice | `Mqtt.at_most_once_violation` |
| C68 | a brightness or percentage that is no number is taken as 0: "50%" turns the light off, opens the shutter | `Mqtt.garbage_ignored_violation` |
| C68 | a temperature that is no number sets zero degrees | `Mqtt.garbage_setpoint_violation` |
| C68 | everything but "1", "yes", "true" turns a relay off, "on" among them | `Mqtt.set_on_violation` |
| C69 | a part of a topic that does not fit is dropped silently, leaving the topic of something else | `Mqtt.topics_exact_violation` |
| C69 | channels from 100 on all get the empty discovery identifier | `Mqtt.object_id_distinct_violation` |
| C69 | a configuration change of channel 64 or above is written behind the array of changed bits | `Mqtt.notify_safe_violation` |
| C69 | with more than 64 channels the pass over the changed bits reads behind the array | `Mqtt.pass_safe_violation` |
| C70 | Channels take every authorisation value but 0, the device only 1 | `Calcfg.only_one_violation` |
| C70 | SET_TIME with data type 0 is accepted with data of any size (`&&` for `\|\|`) | `Calcfg.set_time_violation` |
| C70 | A late answer over 128 bytes is never sent (size noted before it is cut) | `Calcfg.late_answered_violation` |
| C70 | If the owner of a subdevice answers later, the requester is not noted and the answer dropped | `Calcfg.late_noted_violation` |
| C70 | A second request on a channel replaces the first requester, who gets no answer | `Calcfg.everyone_answered_violation` |
| C71 | A light switched on again more often than once a second counts no operating time at all | `Timekeep.repeated_turn_on`, `Timekeep.accurate_violation` |
| C72 | A pause of more than an hour between passes is missing in the uptime | `Timekeep.uptime_violation` |
| C73 | The timer of a clock not yet set notes no time: the first tick after the first setting adds the whole uptime (visible on AVR, where the library counts the seconds) | `Timekeep.clock_right_violation`, `Timekeep.first_tick_error` |
| C73 | A failed conversion (result 0) does not set the clock but makes it ready | `Timekeep.ready_set_violation` |
| C73 | The clock reading 0 means "never asked", so the server is asked twice at a wrap-around | `Timekeep.asks_rarely_violation` |
| C74 | If only the last channel of the device is beyond the report, it is not reported as unknown (`<` against the greatest number) | `Conflict.unknown_found_violation` |
| C74 | In reports of more than 128 entries an entry 0 beyond 127 is taken for an unknown channel of the device | `Conflict.long_report_violation` |
| C74 | A report of 256 entries is handed to the resolver with size 0 | `Conflict.size_told_violation` |
| C75 | A custom sequence with on-time 0 leaves a lit LED lit forever (the state is set to off without switching) | `Led.custom_off_violation`, `Led.custom_stuck` |
| C75 | A change of the inverted logic is not shown until the LED is switched next | `Led.invert_shown_violation` |
| C76 | After a custom sequence with limit and pause, automatic sequences still blink in groups with that pause | `Led.auto_rate_violation` |
| C77 | The network name and the update address are put into the page unescaped: a network name with a quote and angle brackets adds markup (script) to the page, and `A&lt;B` is shown as `A<B` | `Html.structure_fixed_violation`, `Html.name_shown_violation` |
| C78 | Opening and saving the page unchanged rewrites a network name with an entity in it: the device no longer finds its network | `Html.open_and_save_violation` |
| C78 | A certificate the page lets one enter (4000 characters) is cut without a word when its form encoding is longer than 3999 characters | `Html.certificate_stored_violation` |
| C78 | 65536 is accepted as the port of the MQTT server | `Html.port_valid_violation` |
| C79 | The destructor of a network interface starts its search with `prev` equal to the second interface itself, so the second one is not taken out of the list and the next walk reads a destroyed object. | `Registry.intfs_exact_violation` |
| C80 | Every destruction of an element makes the main loop begin again with the first element; elements at the end of the list wait as long as others come and go. | `Registry.never_starved_violation` |
| C82 | `isMinimalConfigReady` takes the main interface before the settings are loaded: with the wired interface made first but switched off, a missing Wi-Fi name is not noticed. | `Net.complete_exact_violation` |
| C82 | With Wi-Fi made first and a wired interface enabled, the first look asks for a Wi-Fi name and the second does not. | `Net.answer_stable_violation` |
| C83 | `getLog` reads `buffer[index]` before it compares `index` with the size: when the log is full it reads the byte behind the buffer. | `LastState.reads_safely_violation` |
| C83 | Showing an empty log unlocks a mutex that was not locked. | `LastState.lock_balanced_violation` |
| C84 | A command to a bistable relay within 200 ms of the last one is dropped, so the relay does not end where the last command puts it. | `Bistable.last_command_wins_violation` |
| C84 | At the end of a time limit a bistable relay is changed over (`toggle`), not switched off: if it was switched off by hand before, it goes on and stays on. | `Bistable.timer_ends_violation` |
| C84 | After a restart a bistable relay with restored state is on without the rest of its time limit: `onInit` calls `turnOn()` which clears `durationMs`. | `Bistable.restart_keeps_limit_violation` |
| C84 | A time limit of 2^31 ms or more is negative for `turnOn` of a bistable relay and is taken for none. | `Bistable.limit_used_violation` |
| C88 | `stringAppend` returns 0 for an empty text, which is taken for "too long": a device whose name or version is empty never asks for updates | `Ota.query_made_violation` |
| C88 | every piece of the server's answer overwrites the one before, so an answer in two reads is parsed as its last piece | `Ota.answer_obeyed_violation` |
| C88 | an empty answer makes the code parse an uninitialised buffer; the HTTP client is used before it is compared with NULL | `Ota.never_undefined_violation`, `Ota.no_client_violation` |
| C88 | the parsed JSON answer is not freed when there is no update | `Ota.nothing_leaks_violation` |
| C89 | `mpn_invert_3by2` keeps `ql` in an `unsigned`. Where `unsigned` has only half the bits of a limb (64-bit Linux hosts, AVR) `(p >> h) + 1` can wrap to 0 and the inverse is wrong; a valid RSA signature is then rejected (512-bit key given). On ESP targets the check is exact | `Gmp.host_check_violation`, `Gmp.inverse_violation` |
| C90 | the answer to a weekly schedule sent by the server says it is about the plain configuration (ConfigType is never filled in) | `Message.answer_names_kind_violation` |
| C90 | a configuration for the second channel of an element (pressure of a thermo-hygro-pressure meter) is answered "channel not found" | `Message.every_channel_reached_violation` |
| C91 | An answer of a Fronius inverter with a line that has no word between the quotes makes `sscanf` leave its target unwritten, which is then compared | `Pv.never_undefined_violation` |
| C91 | An answer cut off after the name of a quantity gives the next Value of the following answer to that quantity | `Pv.cut_is_harmless_violation` |
| C91 | SolarEdge: a one-phase inverter leaves fields empty; `strtok` skips them, so later columns shift and the last reads dereference NULL | `Pv.empty_fields_read_violation`, `Pv.columns_kept_violation` |
| C91 | SolarEdge: the request is built in 200 octets; permitted identifiers overflow or cut it | `Pv.query_fits_violation` |
| C91 | Afore: the copied password is not terminated (strncpy with its own length into memory that was not cleared) | `Pv.password_sent_violation` |
| C91 | Afore: a line `var webdata_now_p;` has no value; an unwritten array is converted to a number | `Pv.script_defined_violation` |
| C92 | A new general purpose meter does not count: its variable starts as NaN and NaN plus a step is NaN, also over saves and restarts, until somebody resets it | `Gpm.counts_from_new_violation`, `Gpm.new_meter_stays_unknown` |
| C92 | setCounterResetSupportFlag(false) does not stop the server from resetting the meter | `Gpm.reset_only_if_supported_violation` |
| C93 | Holding the button of a group of dimmers (default setting) dims the first and switches the others off: the colour brightness of the first, always 0, is given to the others | `Group.iterate_sync_violation` |
| C94 | A device without a configuration storage and without certificates encrypts the connection but accepts every server, although with a storage the missing certificate makes the connection fail. | `Tls.only_trusted_violation` |
| C94 | A network client handed to the protocol layer before `begin()` keeps "no certificate" for ever: the certificate chosen later is set only in `initClient`, which is not called again. | `Tls.given_before_violation` |
| C94 | `getSuplaServerPort` lets 65536 through (`> 65536`): the device connects without encryption to port 0. | `Tls.encrypted_violation` |
| C94 | Server names of more than 64 characters are cut and the device connects to the cut name. | `Tls.host_kept_violation` |
| C95 | A condition on the total power adds three 32-bit numbers in 0.00001 W: three phases with 8 kW each overflow, which is undefined behaviour. | `Condition.total_power_violation` |
| C95 | After `resetReadParameters` the bits of the measured quantities stay set: the next reading of another quantity makes conditions compare a power of zero that nobody measured. | `Condition.only_measured_violation` |
| C95 | Conditions are evaluated at every change, but on the value of the channel, which is refreshed only when `refreshRateSec` has passed: a slightly faster reading leaves the condition with the old value, for as long as the measured value stays. | `Condition.compares_newest_violation` |
| C96 | A calibration asked for while a two-button shutter opens presses "up" again, which stops the drive; 11/10 of the opening time later the program presses "up" to stop it, which starts it, and reports the shutter open and still | `Pulse.follows_two_violation`, `Pulse.rests_violation` |
| C96 | The setting for a motor mounted upside down has no effect on shutters operated by presses | `Pulse.reversible_violation` |
| C96 | After a restart in mid movement the next command of a two-button shutter stops the drive instead of starting it | `Pulse.restart_violation` |
| C97 | A thermostat without a master (pump, source) shows both "Not set" and channel 0 as chosen if channel 0 is another thermostat (pump switch, source switch); the browser takes the last one, so saving the page makes channel 0 the master (pump, source) | `Form.master_violation`, `Form.pump_violation` |
| C97 | Saving the page of a roller shutter with the default margin (shown as -1) disables the margin for good, also for later settings from the server | `Form.margin_disabled` |
| C97 | Saving the page of a roller shutter whose times are not in tenths of a second changes the times and loses the calibration | `Form.calibration_lost` |
| C97 | Saving the page of a thermostat cancels a running timer and a manual override of the schedule | `Form.timer_violation`, `Form.override_violation` |
| C97 | Saving the page rounds set points and truncates hysteresis and protection temperatures to tenths of a degree, and replaces an output in case of an error other than 0 and ±100 by 0 | `Form.setpoint_violation`, `Form.hysteresis_violation`, `Form.onError_violation` |
| C98 | A thermometer that is lost (`INT16_MIN`) counts as a drop of the temperature: the window is reported as open, for half an hour, and again with the next reading | `Drop.missing_violation` |
| C98 | A drop noticed just when the wrapped `millis()` is 0 leaves `dropDetectionTimestamp` 0: the window stays open until the next drop ends | `Drop.stuck_violation` |
| C99 | When the server inverts a binary sensor, the state the device and MQTT use changes but no turn-on or turn-off action is run until the input changes | `Binary.inversion_violation` |
| C99 | An inverted binary sensor whose input is low when the device is switched on is on, but no turn-on action is run (with a high input, turn-off is run) | `Binary.boot_violation` |
| C100 | a thermocouple whose temperature is 16 times that of its chip (400° at 25°) is taken for a MAX6675 and reported as half | `Probe.sixteenfold_violation` |
| C100 | a MAX6675 at 0° is reported as not available by the driver for both chips; a missing MAX6675 is reported as 0° by the other one if the line is low | `Probe.zero_violation`, `Probe.absent_violation` |
| C100 | a DS18B20 at exactly 85° is taken for a failure | `Probe.dallas_violation` |
| C100 | complete darkness is reported as a failure of the light sensor | `Probe.dark_violation` |
| C100 | a failed BME280 is reported as NaN, or as a pressure if an altitude is set; a failed AHT keeps its last value for ever | `Probe.bme_violation`, `Probe.pressure_violation`, `Probe.aht_violation` |
| C101 | a distance sensor without echo is reported with its old distance again after 256 attempts (128 where char is signed), and as the nearest distance after start | `Probe.Distance.wrap_violation`, `Probe.Distance.never_violation` |
| C101 | an input range of one distance divides by zero; −1 m is sent as "not available" | `Probe.Distance.defined_violation`, `Probe.Distance.told_violation` |
| C102 | the time margin of a roller shutter: −1 ("use default") is taken as 0, 300 as 44 | `Form.margin_violation`, `Form.margin_beyond` |
| C102 | a thermostat takes a typed 676.8° as 21.44° | `Form.temp_violation` |
| C103 | an internal output that is on by default stays on when the thermostat asks for off; after an action or the end of a duration the request for on is ignored | `PinOut.default_violation`, `PinOut.action_violation`, `PinOut.duration_violation` |
| C104 | the rolling code is sent with its octets in the order of memory: on little-endian processors a receiver sees it go up by 256, and back every 256th time | `Somfy.rolls_violation`, `Somfy.goes_back` |
| C105 | something failing after the configuration button but before the next pass leaves the factory test neither passed nor failed, for ever: no restart, no timeout | `Ftest.failure_violation`, `Ftest.stuck` |
| C106 | (Linux) a sensor whose key is missing makes all sensors on the same parser unavailable until the next refresh | `Parsed.always_violation` |
| C106 | (Linux) a counter without source shows 0; an energy whose key is missing in one reading shows 0; after the source is lost a meter alternates between 0 V and the old voltage | `Parsed.counter_violation`, `Parsed.energy_violation`, `Parsed.voltage_violation` |
| C106 | (Linux) lines of the simple parser that are numbers of 2147483648 or more are converted to `int`: undefined | `Parsed.line_violation` |
| C106 | (Linux) while a topic has no message yet, the messages of later topics are read as its own | `Parsed.topics_violation`, `Parsed.topics_shift` |
| C107 | (Linux) the value -1 is off, not invalid/offline as the manual says | `Parsed.State.state_violation` |
| C107 | (Linux) actions of values (`on_value`) are triggered by the state: one for the value 5 is never sent | `Parsed.State.values_violation`, `Parsed.State.values_never` |
| C107 | (Linux) for a relay without source the state that triggers actions is always 0 | `Parsed.State.reported_violation` |
| C108 | (Linux) an expired file that is then deleted is given again three times | `Parsed.File.expired_violation` |
| C108 | (Linux) the storage file is emptied before it is written (power failure loses it), a refused write is taken for done, writes beyond the reserved size are undefined | `Parsed.File.atomic_violation`, `Parsed.File.retried_violation`, `Parsed.File.bounded_violation` |
| C109 | on LittleFS erasing a key never removes a value of 32 bytes or more: a purged thermostat or meter configuration is still read at the next start | `LittleFs.erase_violation`, `LittleFs.erase_keeps_long` |
| C109 | a long value is accepted as the answer to a read of a larger size: the rest of the caller's structure keeps what it held, and `true` is returned | `LittleFs.whole_violation` |
| C109 | a key whose value goes from 32 or more bytes to fewer has two values, one per size asked for; the size of a short value is reported as 0 | `LittleFs.latest_violation`, `LittleFs.size_violation` |
| C109 | a certificate of exactly 4000 characters is shown on the configuration page without a terminator: the memory behind the buffer is sent | `LittleFs.ca_violation` |
| C110 | on AVR boards 29 bits of every reading sent are whatever was on the stack: readings are off by up to one part in 2^23 and the same reading counts as a change | `Ieee.same_violation` |
| C110 | on AVR boards a reading of 0 is sent as about 2^-127 and a missing reading (NaN) as a number above 2^128; a channel without value (zero bytes) reads as 2 | `Ieee.zero_never`, `Ieee.nan_never`, `Ieee.read_violation` |
| C22 | a handler that unregisters itself when called makes the dispatcher read a freed node; one that registers itself again for the same event is called without end | `Actions.self_delete_violation`, `self_add_violation` |
| C111 | an acknowledged reset of the operating time is undone by a power cut before the next periodic save | `Timekeep.reset_stays_violation` |
| C76 | `setDefaultMode(LED_IN_CONFIG_MODE_ONLY)` is loaded as "on when connected", stores 3 and thereby locks the setting for the server | `Led.default_config_only_violation` |
| C112 | A save requested with a short delay waits for a longer delay already pending; a delay of 0 is ignored | `Save.on_request_violation`, `Save.zero_delay_violation` |
| C113 | RGBWLeds on an output expander replaces its pins by PWM channels (ESP32, core 2.x) and so writes to wrong outputs; on all boards it turns native pins with the same numbers into outputs | `Pwm.rgbw_expander_violation` |
| C113 | On an AVR with PCA9685 the value is scaled twice, full brightness is a quarter; values 1-4 are dark on AVR; full is 1023/1024 on ESP8266; the 17th PWM output of an ESP32 stays dark | `Pwm.duty_violation`, `Pwm.channels_violation` |
| C114 | Movements of less than one percent are forgotten when the motor stops: touching the button for down a hundred times for a tenth of a second closes a shutter of ten seconds while the device shows it as open, and "open" then does nothing. | `Shutter.shown_drifts_violation`, `Shutter.open_ignored_violation` |
| C115 | `three_phase_PzemV3.h` and `PzemV2.h` give the reactive power with the factor 10000 where the setter wants 0.00001 var: 230 var are shown as 23 var (the other two drivers have 100000). | `Pzem.reactive_violation` |
| C115 | Only the current is checked for "no answer"; when the link breaks after it, NaN (or −1 of version 2) is converted to an unsigned number, which is undefined. | `Pzem.broken_reading_violation` |
| C116 | `address[0]` is the CRC byte of the code of the probe, and 0 there means "no address": a probe whose CRC is 0 (one of 256) gets assigned and is never read. | `Ds.crc_zero_violation` |
| C116 | `retryCounter` is `int8_t`: after 128 failed readings in a row (about 21 minutes) it wraps to −128 and the channel shows the last temperature before the failure again, for 131 readings. | `Ds.stale_violation` |
| C116 | `lastValidValue` is kept when the assignment is reset: if the first readings of the new probe fail, the temperature of the old one is shown. | `Ds.other_probe_violation` |
| C116 | "Reset assignement" looks the probe up on the bus; when it has gone (the reason to reset) and the device was restarted, nothing happens. | `Ds.reset_missing_violation` |
| C116 | With 16 probes, the size of the table, the next `scanBus` reads beyond `devices`. | `Ds.sixteen_violation` |
| C117 | Interrupt AC/DC adapter: a DC level that is high when the device starts is never shown (the level is read only after an edge); an edge handled at clock value 0 is taken as "no edge pending" and the level is not read | `AcDc.high_at_start_violation`, `AcDc.clock_zero_violation` |
| C118 | SHT30/SHT40: a failed reading is shown as −45 °C and 0 %; a removed SHT30 keeps its last values for ever; the checksums are not verified; `setNewValue(getTemp(), getHumi())` relies on the unspecified order of evaluation (humidity one reading late) | `Sht.no_answer_violation`, `Sht.no_data_violation`, `Sht.removed_violation`, `Sht.crc_ignored_violation`, `Sht.humidity_late_violation` |
| C119 | OCR over HTTP (ESP-IDF): each piece of the photo answer overwrites the one before (success with only the last piece); a status answer of exactly the buffer size has no end mark; a chunked answer gives success with empty text; a piece that does not fit is left out while a later one is appended | `Answer.photo_pieces_violation`, `Answer.photo_long_violation`, `Answer.status_unterminated_violation`, `Answer.status_chunked_violation`, `Answer.status_gap_violation` |
| C120 | HX711 scales: a negative calibration factor (load cell mounted the other way round) is not used after a restart; calibrating with nothing on the scales gives factor 0 and a cast of NaN to `int`; weights in (−1.1, −1] equal "not available"; 0 is shown before the first sample | `Scale.reversed_cell_violation`, `Scale.calibrate_empty_violation`, `Scale.minus_one_violation`, `Scale.zero_at_start_violation` |
| C121 | Linux client: the socket is always created with the family of the first address, so with a dead IPv6 address no IPv4 address is reached; without encryption `readImp` gives 0 when nothing has arrived, which the protocol takes as communication failure, `writeImp` returns a shadowed 0, and messages partly taken by the socket are cut | `LinClient.mixed_family_violation`, `LinClient.plain_idle_violation`, `LinClient.plain_write_violation`, `LinClient.plain_stream_violation` |
| C122 | State in a file: the file is truncated and rewritten in place, a power cut loses the state (SPIFFS: all zero; Linux: zeros after the cut); a failed commit clears `dataChanged` and is never repeated; SPIFFS drops the state when its size changes; Linux has no bounds check, that of SPIFFS wraps at 32 bits | `FileStore.spiffs_crash_violation`, `FileStore.linux_crash_violation`, `FileStore.not_retried_violation`, `FileStore.resize_violation`, `FileStore.outside_violation` |
| C123 | The wait between attempts to connect to the MQTT broker is not reset by a connection that worked: from the sixth loss on it is 60 s each time (once 65 s, above the limit); a broker that is away is tried without growing wait (TLS build) | `LinMqtt.not_fresh_violation`, `LinMqtt.cap_violation`, `LinMqtt.no_growth_violation` |
| C123 | Without TLS every socket is connected to the first address of the broker: other addresses are never tried, a socket per address stays open, and the device takes the result (even "no address") as a connection | `LinMqtt.open_other_violation`, `LinMqtt.no_address_violation` |
| C123 | A topic named after the client started is never subscribed | `LinMqtt.subscribed_late_violation` |
| C123 | With two topics in one source, as long as the first has no message the message of the second is read as the value of the first | `LinMqtt.first_topic_empty_violation` |
| C124 | On ESP-IDF a text field of the configuration page is always shown empty (the size asked for has no room for the zero byte), and saving the page erases the stored text | `Nvs.untouched_violation`, `Nvs.size_violation` |
| C124 | Each question for the size of a missing text takes 4000 bytes of memory for good (each showing of a page with an unset text field) | `Nvs.leak_violation` |
| C124 | When the partition "suplanvs" appears, the configuration in "nvs" is erased without being copied; the size of a blob is never told | `Nvs.new_table_violation`, `Nvs.blob_size_violation` |
| C125 | `supla: port:` of the file of the Linux port (documented) is never read: the port is 2016 unless a top-level `port` is given | `LinYaml.supla_port_violation` |
| C125 | `use_ssl: false` without a port selects port 8883, unencrypted | `LinYaml.mqtt_port_default_violation` |
| C125 | Numbers in the file are cut to a byte (`security_level: 258` is read as 2), and keys in the file hide values stored at run time | `LinYaml.uint8_violation` |
| C125 | MQTT texts of 256 bytes or more in the file are written outside a local buffer | `LinYaml.mqtt_text_violation` |
| C125 | A repeated `channel_number` silently goes to the last channel; a channel added at the end with the number of another takes it; that of an action trigger is ignored | `LinYaml.twice_violation`, `LinYaml.append_violation`, `LinYaml.trigger_violation` |
| C126 | A master set point outside the limits of the following thermostat is taken over every second and restarts the five second wait each time: regulation, thermometer error handling and protections never run again, the output stays as it was | `Hvac.Mode.frozen`, `Hvac.Mode.out_of_limits_violation` |
| C126 | A following thermostat turned off by its sensor (output not controlled by the library) stays off for the same reason after the sensor clears | `Hvac.Mode.sensor_forgotten`, `Hvac.Mode.sensor_violation` |
| C126 | A following thermostat in its own weekly schedule regulates by its schedule at a program change | `Hvac.Mode.own_schedule_violation` |
| C127 | One flag stands for the main and the alternative weekly schedule, and the answer for either, good or bad, clears it (hvac_base.cpp 2590-2605): an alternative schedule that did not get out, was refused, or was changed between the two answers is not sent again, and after a broken connection the old one of the server replaces it. | `Hvac.Sync.alt_not_sent_violation`, `refused_violation`, `second_answer_violation`, `broken_violation` |
| C128 | A thermostat (heat and cool schedules) keeps and uses a stored main schedule it found invalid if the alternative one is valid; a missing alternative schedule stays off all week if the main one is valid; a lower limit above 19 degrees makes the default week off at night | `Hvac.Schedule.main_invalid_violation`, `Hvac.Schedule.alt_missing_violation`, `Hvac.Schedule.night_violation` |
| C129 | The toggle action does nothing while the schedule runs a program "off" (the thermostat heats at the next program); it only stops the timer of a timed off; the off/manual/weekly button never leaves off on a differential thermostat | `Hvac.Mode.toggle_schedule_violation`, `Hvac.Mode.toggle_timer_violation`, `Hvac.Mode.diff_violation` |
| C130 | A power cut drops the temporary override of a schedule program; a timed mode never ends if the clock is not set after the restart | `Hvac.Mode.override_lost_violation`, `Hvac.Mode.timer_no_clock_violation` |
| C131 | LAN8720 (ESP-IDF): `setup` clears the ready flag but starts the driver only the first time. When the server does not answer for a minute the main loop sets the network up again; the address is not announced again, so the device stays without a network until the cable is pulled or it is restarted | `Link.outage_violation`, `Link.lan_stuck`, `Link.lan_ready_violation` |
| C131 | LAN8720: after `disableNetwork` the stopped driver is never started again | `Link.lan_off_violation` |
| C131 | Arduino Ethernet does not look at the loss of an address | `Link.arduino_ready_violation` |
| C131 | Wi-Fi: a loss of connection with the same reason as one of the two before is not logged, even after a long time of working; the state of the device keeps the old address | `Link.Wifi.loss_logged_violation`, `Link.Wifi.state_address_violation` |
| C132 | A pump relay whose function is changed to something else and back is never again switched by the thermostats using it, until they are reconfigured or restarted: the list dies with the aggregator (relay.cpp 661) and the thermostat believes it is registered (hvac_base.cpp 602). | `Aggregator.Use.lost_for_good`, `Aggregator.Use.function_and_back_violation` |
| C132 | A configuration that says "no pump" but carries a channel number (0, or the former pump) makes that relay follow the thermostat (hvac_base.cpp 971-972 do not look at `PumpSwitchIsSet`); a restart ends it. | `Aggregator.Use.unused_pump_violation`, `Aggregator.Use.switched_off_violation`, `Aggregator.Use.restart_differs` |
| C132 | With an initial configuration, changing the function of a thermostat puts the initial pump into the configuration while the former pump keeps following it (hvac_base.cpp 4393-4400). | `Aggregator.Use.initial_violation` |
| C132 | The pump or source on channel 0 cannot be chosen in the set-up: the number already stands in the zeroed configuration and the setter returns (hvac_base.cpp 5436). | `Aggregator.Use.channel_zero_violation` |
| C132 | A set-up without pump: after the server set one and changed the function, the configuration says the thermostat uses itself as pump (hvac_base.cpp 4478-4483 never clear `PumpSwitchIsSet`). | `Aggregator.Use.no_pump_default_violation` |
| C133 | A sensor that loses its temperature (or humidity) publishes nothing: the retained last temperature stays at the broker, over reconnections, for good | `Mqtt.State.temperature_stays`, `Mqtt.State.temperature_violation` |
| C133 | Gates, garage doors and locks are published as "closed" whatever their state | `Mqtt.State.gate_closed`, `Mqtt.State.gate_violation` |
| C133 | A thermostat without set point (INT16_MIN) publishes -327.68 degrees, except for the function heat and cool | `Mqtt.State.setpoint_unset`, `Mqtt.State.setpoint_violation` |
| C133 | A shutter that does not know its position is published as 0 % shut (open) | `Mqtt.State.position_violation` |
| C133 | Connecting publishes nothing of an electricity meter: what was counted while only the other protocol was connected is missing until the next change | `Mqtt.State.meter_reconnect`, `Mqtt.State.meter_violation` |
| C133 | After a change of the function the retained topics of the former function stay at the broker | `Mqtt.State.former_stays`, `Mqtt.State.former_violation` |
| C133 | That a channel is offline or not available is not published at all | `Mqtt.State.offline_unseen`, `Mqtt.State.offline_violation` |
| C134 | Prefix, host name and device name are put into the JSON without escaping: a quotation mark in the MQTT prefix makes every document invalid | `Mqtt.Discovery.quote_violation`, `Mqtt.Discovery.form_violation` |
| C134 | The documents of balanced energies name total_forward_active_energy_balanced, the device publishes total_forward_balanced_active_energy | `Mqtt.Discovery.balanced_violation` |
| C134 | Heat and cool: all four setpoint topics in the document end in a slash and are neither published nor subscribed | `Mqtt.Discovery.setpoint_violation` |
| C134 | A light with colour only ignores the announced TURN_ON and TURN_OFF | `Mqtt.Discovery.light_violation` |
| C134 | A relay whose function changes from light to switch is seen twice by home automation: the former document is not removed | `Mqtt.Discovery.former_violation` |
| C134 | The topics of the thermometer in the document of a thermostat are cut at 99 characters | `Mqtt.Discovery.thermometer_violation` |
| C134 | The document of a thermometer announces expiry after the activity timeout, but a steady temperature is never sent again | `Mqtt.Discovery.expire_violation`, `Mqtt.Discovery.nothing_sent` |
| C135 | The web page accepts 31 February (any day up to 31 in any month); the device then shows 3 March (time_parameters.cpp 140-190). | `Calendar.february_violation` |
| C135 | A command to set the time with data type 0 and no data is answered as done; the device then takes itself to be in the year −1 with a ready clock (SuplaDevice.cpp 850-865: the size is only checked when the type is not 0). | `Calendar.command_violation` |
| C135 | The flag of the clock chip that it lost power is read but never used: a chip that lost power and shows a year from 2023 on is believed (DS3231RTC.h 38-70). | `Calendar.lost_violation` |
| C135 | A server time of 1970-01-01 00:00:00 is ignored, yet the clock becomes ready with whatever time it has (clock.cpp 196-211, 277-298). | `Calendar.epoch_violation` |
| C136 | A correction is kept under the channel number: renumbering the channels after it was set gives it to another channel (correction.cpp 21-52, channel.cpp 115-134). | `Climate.renumbered_violation` |
| C136 | An AHT sensor that stops answering shows its last temperature for ever: the result of `getEvent` is not looked at (AHT.h 33-52). | `Climate.stale_violation` |
| C136 | A BME280 that gives not-a-number right after it was found hands it on; the conversion to an integer is undefined behaviour (BME280.h 35-49, channel.cpp 199-200). | `Climate.nan_violation` |
| C136 | With an altitude set, the pressure of a BME280 that is not found is not −1 ("not available") but −1 converted to sea level; a correction changes it too (BME280.h 67-84, channel.cpp 136-147). | `Climate.pressure_violation` |
| C136 | A temperature above −273 °C whose correction takes it to −275 or below is seen by the thermostat as a failed sensor (channel.cpp 167-183, therm_hygro_meter.cpp 62-78). | `Climate.cold_violation` |
| C137 | a timer started in the millisecond in which the previous one was told is not told to the app, which goes on showing the old one | `Relay.Remain.same_ms_violation`, `Relay.Remain.always_violation` |
| C137 | a timer started in the millisecond in which the counter is zero is taken for none and never told | `Relay.Remain.round_violation` |
| C138 | a timed switching on of a Linux relay whose source does not say "on" when the time is over is never switched off: the timer toggles what the source says and so runs the on command again | `Relay.Command.never_off_violation`, `Relay.Command.staircase_violation`, `Relay.Command.timedOnEnds_violation` |
| C138 | when no process can be started, `pclose` is called with a null pointer | `Relay.Command.no_process_violation` |
| C138 | a virtual staircase relay with a minimum duration and no staircase time stays on for ever, a relay on a pin for the time the server gave | `Relay.Command.minimum_violation` |
| C139 | after `disconnect()` (network lost) the MQTT layer still considers itself connected until a newly started client reports otherwise | `Mqtt.Tasks.connected_violation` |
| C139 | ESP-IDF: a topic of 256 or more characters (possible through `+` subscriptions) leaves the topic buffer without a terminating zero: reading behind it | `Mqtt.Tasks.long_topic_violation` |
| C139 | ESP-IDF: texts of 50 or more characters are acted on by their first 49 | `Mqtt.Tasks.long_data_violation` |
| C140 | Battery and signal of a second channel are never told: the element is looked up by its main channel only, so the code for second channels is not reached | `Info.second_channel_violation` (all cases: `second_channel_silent`) |
| C140 | A known battery level can never become unknown again; the last one is told for ever | `Info.level_withdrawn_violation` (all cases: `level_stays`) |
| C140 | A Linux sensor whose supply file cannot be read is reported as battery powered, whatever was known | `Info.unreadable_violation` (all cases: `unreadable_powered`) |
| C140 | A battery level outside 0..255 in a sensor file is undefined behaviour (number converted to an octet before it is checked) | `Info.number_violation` (exactly when: `refresh_undefined`) |
| C141 | A countdown the thermostat has forgotten (weekly schedule for an hour) is shown by the app to its end | `Hvac.Told.shown_violation` (all cases: `lost_countdown`) |
| C141 | When the clock is corrected during a countdown the new end is not told; the app is wrong by the correction | `Hvac.Told.correction_violation` (all cases: `wrong_by_correction`) |
| C142 | A factory reset erases GUID and AuthKey and writes them again: power lost in between makes another device (NVS, LittleFS, SPIFFS) | `Identity.reset_cut_violation` (all cases: `reset_cut_new_identity`) |
| C142 | `generateGuidAndAuthkey` reports success without looking at the commit: with a full or broken medium every start is another device | `Identity.refused_commit_violation` (all cases: `refused_commit_new_identity`) |
| C142 | NVS: a refused write after an interrupted first start pairs the old GUID with a new key | `Identity.mixed_violation` |
| C142 | A lost AuthKey replaces the GUID as well | `Identity.guid_not_kept_violation` (all cases: `lost_half_renewed`) |
| C142 | On a board without a generator (Arduino Mega) the identity is zeros and the device never starts | `Identity.zeros_never_start` |
| C142 | Linux: GUID and AuthKey come from a 32-bit seed (low bits of the clock): they repeat, and the key follows from the GUID | `Identity.distinct_violation`, `Identity.key_follows_from_guid_violation`, `Identity.few_keys` |
| C143 | A counter saved while a pulse makes it carry is saved too large (255 as 511), and with 8- or 32-bit words also shown and reported so; the meter then goes back | `Counter.Torn.saved_violation`, `carry_violation`, `backwards_violation` (all cases: `one_pulse`) |
| C143 | Read or reset from the highest word down, a carry shows zero or leaves a word's worth on the meter | `Counter.Torn.high_violation`, `reset_high_violation` |
| C143 | Pulses that arrive during an INCREMENT action are lost | `Counter.Torn.increment_violation` (all cases: `increment_loses`) |
| C144 | A calibrated shutter that has been closing for longer than its opening time and margin loses the command "up": the pass that stops the motor sets the new operation timeout and compares it with the start of the old movement, so the command is replaced by "stop". A shutter that closes in 15 s and opens in 10 s, told "up" after 14 s, stops and stays. Without travel times the code clears the timeout at this point. | `Shutter.Obey.reversal_lost`, `Shutter.Obey.commands_obeyed_violation` |
| C144 | Commands and the timer share two variables without a lock: a command interrupted by the pass in which the operation timeout ends, or given from another core while the timer takes an earlier command, is lost; the shutter stays or goes the other way to its end. | `Shutter.Obey.split_lost`, `Shutter.Obey.mid_lost` |
| C145 | Meters, thermometers, general purpose channels, dimmers, valves and containers store the function the server names and never read it: after a restart they have the default of the firmware until the server sends their configuration again. | `ChanCfg.Keep.never_kept`, `ChanCfg.Keep.function_kept_violation` |
| C145 | A binary sensor takes any function from the server and stores it, but at a start drops one that is not in its list. | `ChanCfg.Keep.improper_lost` |
| C146 | `turn_on_payload`/`turn_off_payload` that merely begin with a number are sent as that number (`12:30` → `12`), so two different settings may send the same; a number outside `int` throws an exception nobody catches | `Payload.sent_as_set_violation`, `Payload.told_apart_violation`, `Payload.checked_violation` |
| C146 | JSON payloads are not escaped: a quote or backslash in the value or key gives another object | `Payload.json_violation`, `Payload.json_members` |
| C146 | Commands are cut to 255 characters without a warning; a number and a text as the two values have no command line that is defined for both and tells them apart | `Payload.command_run_violation`, `Payload.mixed_violation` |
| C146 | The setting `qos` is passed as the flags of PUBLISH: 1 gives a retained message of quality 0, 2 gives quality 1 (flags as in MQTT 3.1.1; the library itself is not in the repository) | `Payload.qos_kept_violation` |
| C146 | A relay without `payload` loads and dereferences a null pointer at its start | `Payload.no_payload_violation` |
| C146 | A payload that could not be sent is never sent again; with MQTT that is always the case for the initial state | `Payload.follows_violation`, `Payload.start_not_published` |
| C147 | Saving the page `/beta` switches Ethernet off, and Wi-Fi where the device has several interfaces: the switches of the network section are not on that page but are taken as "off" at its end (only the section FORM is excluded) | `Pages.beta_page_disables`, `Pages.only_the_page_violation` |
| C147 | A form that does not come from the page (a phone app that sends the network and the server only) switches off every custom switch and Ethernet | `Pages.named_only_violation` |
| C147 | After a form that broke off behind a switch that was on, the next form cannot switch it off | `Pages.cut_then_off`, `Pages.last_form_violation` |
| C147 | A change of the home screen content is noted for the server again by every later post until a restart | `Pages.home_noted_again`, `Pages.noted_violation` |
| C147 | Tags of switches and choices with more than 15 characters are cut without a terminating zero | `Pages.tag_ends_iff` |
| C148 | `SUPLA_SC_CALL_CHANNEL_VALUE_UPDATE_B` has no version beside it in proto.h (215), the table asks for 15 | `Versions.table_violation` |
| C148 | With any version below 25, the default 23 included, the details of a subdevice are refused by the table and never leave the device; only a warning is logged (supla_srpc.cpp 1298-1307) | `Versions.details_never_sent`, `Versions.calls_sent_violation` |
| C148 | `begin` with 20 or less is raised to 23, but the flag for remote configuration was decided before (SuplaDevice.cpp 158-165), so the device speaks 23 and does not take its configuration from the server | `Versions.low_is_23_violation` |
| C148 | The versions a server names in its version error are logged only; the device tries the same version every 15 s for ever (supla_srpc.cpp 526-538) | `Versions.settles_violation`, `Versions.never_settles` |
| C148 | A `SuplaSrpc` layer made with a version from 1 to 22 (other than through `begin`) can connect but never registers: call 75 needs 23 (supla_srpc.cpp 842) | `Versions.layer_mute`, `Versions.layer_registers_violation` |
| C149 | `writeStorage` returns the full size although bytes beyond the end of the EEPROM (1024 on ESP8266, 512 on ESP32 by default) are dropped; they read as 0 | `Eeprom.outside_lost`, `Eeprom.read_back_violation` |
| C149 | The result of `EEPROM.commit()` is not used and the mark for changes is cleared (eeprom.cpp 93-98): after a failed commit nothing reaches the flash until another write | `Eeprom.failed_forgotten`, `Eeprom.commit_keeps_violation` |
| C150 | `onInit` compares the output pin while it is still an input (pin_status_led.cpp 37-40, 62): if the pin floats at the level wanted nothing is written and the lamp comes up with what its latch had | `Lamp.start_wrong`, `Lamp.start_violation` |
| C150 | A source (`Io` object) that gives a value other than 0 and 1 makes every update write; one that gives a multiple of 256 shows as off | `Lamp.noisy`, `Lamp.wide_source` |
| C151 | The Linux port prints microseconds without leading zeros (linux_log.c 75; log.c 254 has `%06ld`): 1.000005 s is printed as `[1.5]`, so every line of the first tenth of a second reads as later than it was | `Logs.early_reads_late`, `Logs.time_violation`, `Logs.order_violation` |
| C151 | If `vsnprintf` gives a negative number the buffer is doubled until memory ends; where memory is always given the `int` size overflows (log.c 97-110) | `Logs.double_undefined`, `Logs.defined_violation` |
| C152 | ESP32 port: `digitalWrite` leaves the pad held and `pinMode(OUTPUT)` does not release it, so an element that writes its level before setting the mode, and not again after it, leaves its pin without a driver until its next write (roller shutter, bistable relay, three-button stop, blinking LED); a mode the port does not know leaves a held output on; a pin number from 64 on shifts out of range | `Pads.silent_violation`, `Pads.shutter_undriven_violation`, `Pads.unknown_mode_keeps_violation`, `Pads.run_undefined_violation` |
| C153 | 17 types of the protocol given to `setType` are registered as type 0, and no temperature is read from a channel set as DS18B20, DHT or AM230x | `Kinds.unnamed_lost_violation`, `Kinds.old_thermometer_violation` |
| C154 | `BlinkingLed::setCustomSequence` updates the pin after it has released the lock, so the timer of the LED may be at the pin at the same time | `Locks.custom_unguarded_violation`, `Locks.custom_race_violation` |
| C155 | `ThermHygroPressMeter` checks the time for the pressure and then again for the temperature: if the clock ticks between the two checks at the end of a period, the pressure is not read in that period, and with such a schedule never | `Refresh.never_read_violation`, `Refresh.together_violation` |
| C156 | the timeout of the watchdog is set only on a change of status: a mode set without one leaves it, and after a download given up the status stays at download through all attempts to register, with the timeout of 5 minutes | `Watchdog.mode_ignored_violation`, `Watchdog.follows_violation`, `Watchdog.download_kept_violation` |
| C157 | Starting from zero, `crc8` does not count zero bytes in front of a block, and a block of zeros of any length passes with a CRC of zero | `Crc8.leading_zeros_violation`, `Crc8.zeros_pass_violation` |
| C158 | A name (`use`) written in the same element as a condition is not seen and the channel is refused; an action number outside 0 to 31 is accepted and shifts by it (undefined); actions waiting to be sent are a set, their order and number are lost | `AtConfig.name_beside_condition_violation`, `AtConfig.range_violation`, `AtConfig.order_violation` |
| C159 | A thermostat of the Linux port never runs the command for on when it cools: on/off outputs get -1 for cooling (`hvac_base.cpp` 3110, 3135), and `CmdOutput` has commands for 1 and 0 only; it still reports that it cools. If `popen` fails, `pclose` gets a null pointer | `CmdOut.cooling_never_on_violation`, `CmdOut.both_never_cools_violation`, `CmdOut.reports_cooling_violation`, `CmdOut.popen_violation` |
| C160 | Every start of the Linux program empties the file of last states: what led to a restart cannot be read after it | `StateFile.start_erases_violation`, `StateFile.lines_violation` |
| C161 | `SwUpdate::setUrl` fills all 202 bytes of its buffer for a longer address and leaves no end of string (not reached through the configuration, which refuses more than 201 characters) | `UpdateUrl.long_url_violation` |

## Mutant log

`seeded/LOG.jsonl` has one line for each attempt. A line with `claim_broken` "none" is an edit that breaks no
stated claim (found so afterwards); it says nothing about the strength of a theorem, whether or not a
theorem failed. Some such lines, and attempts whose edit did not compile, were first left out and were
restored later from the record of the session (marked so in `note`). A line without failed theorems and
with `theorems_tightened` is followed by a second attempt after the theorem was tightened.

## Not modelled

Hardware drivers, network stacks, TLS, MQTT broker interaction, HTML rendering text, logging. Thread
interleavings (the timer task versus the main task) are modelled only where a section says so.
