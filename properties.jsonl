{"id": "C01", "title": "Packet framing round trip under any chunking", "statement": "If a peer writes a sequence of valid SUPLA packets to the connection, the receiving side hands exactly those packets, in order, none lost, duplicated or altered, to the RPC layer, no matter how TCP cuts the byte stream into pieces; the receive buffer limit is never hit by such a stream.", "quantifier": "every list of packets with payload up to the maximum, every split of their concatenated encoding into chunks, every interleaving of appends and pops", "why_tests_cant": "the number of chunkings is exponential in the stream length and the payload is arbitrary; a test fixes a handful of cuts", "anchors": ["src/supla-common/proto.c:sproto_in_buffer_append", "src/supla-common/proto.c:sproto_pop_in_sdp", "src/supla-common/proto.c:sproto_out_buffer_append"]}
{"id": "C02", "title": "A delivered packet really was in the input", "statement": "Whenever the receiver reports that it extracted a packet, the bytes it consumed are exactly one well-formed frame (tag, supported version, header, payload no longer than the maximum, closing tag) and the packet handed over is that frame's content.", "quantifier": "every receive-buffer content, including hostile ones", "why_tests_cant": "the input is an arbitrary byte string including 32-bit length fields; tests sample a few malformed packets", "anchors": ["src/supla-common/proto.c:sproto_pop_in_sdp", "src/supla-common/proto.c:sproto_shrink_in_buffer"]}
{"id": "C03", "title": "Receive and send buffers never overflow and fail cleanly", "statement": "After any history of appends and pops, the number of stored bytes never exceeds the allocated size, the allocated size never exceeds the configured maximum (apart from initial minimum), and an append that is rejected leaves the stored bytes unchanged.", "quantifier": "every sequence of append/pop operations with arbitrary data and sizes", "why_tests_cant": "histories are unbounded; memory safety must hold for all of them", "anchors": ["src/supla-common/proto.c:sproto_buffer_append", "src/supla-common/proto.c:sproto_shrink_in_buffer", "src/supla-common/proto.c:sproto_pop_out_data"]}
{"id": "C04", "title": "Outgoing byte stream is FIFO", "statement": "The bytes handed to the network over time are exactly the concatenation of the encodings of the packets accepted for sending, in order; nothing is lost, duplicated or reordered, whatever sizes the network layer asks for. A packet that was refused contributes no bytes.", "quantifier": "every sequence of send requests and network drain requests of any size", "why_tests_cant": "unbounded histories and arbitrary drain sizes", "anchors": ["src/supla-common/proto.c:sproto_out_buffer_append", "src/supla-common/proto.c:sproto_pop_out_data"]}
{"id": "C05", "title": "Request identifiers are never zero and do not repeat early", "statement": "Every packet prepared for sending gets a non-zero request id, and two packets prepared within any window of 2^32-1 consecutive preparations get different ids.", "quantifier": "every number of preparations from a fresh connection", "why_tests_cant": "needs four billion iterations and every start value", "anchors": ["src/supla-common/proto.c:sproto_sdp_init"]}
{"id": "C06", "title": "RPC packet queues are FIFO, bounded and pointer-safe", "statement": "After any history of pushes and pops the queue never dereferences an unallocated slot, holds at most its capacity, a refused push changes nothing, popping without a key returns packets in push order, and popping by request id removes the oldest packet with that id and keeps the order of the others.", "quantifier": "every sequence of push / pop-any / pop-by-id operations", "why_tests_cant": "histories unbounded; slot reuse depends on whole history", "anchors": ["src/supla-common/srpc.c:srpc_queue_push", "src/supla-common/srpc.c:srpc_queue_pop"]}
{"id": "C07", "title": "CRC-16 of stored data detects every short corruption", "statement": "For data of any length, if a stored record and a corrupted version of it differ only inside a window of 16 consecutive bits (in particular in a single byte), their CRC-16 values differ.", "quantifier": "every byte string, every position and every error pattern spanning at most 16 bits", "why_tests_cant": "the set of strings is infinite; tests compare a few CRC constants", "anchors": ["src/supla/crc16.cpp:crc16_update", "src/supla/crc16.cpp:calculateCrc16"]}
{"id": "C08", "title": "Configuration store behaves as a typed map", "statement": "After any history of set operations, reading a key returns the value most recently set successfully for that key (keys being equal when their first 15 characters agree), a set with a type different from the stored one is refused and changes nothing, and setting one key never changes what another key reads.", "quantifier": "every sequence of typed set/get operations over arbitrary keys and values", "why_tests_cant": "histories and key sets unbounded", "anchors": ["src/supla/storage/key_value.cpp:KeyValue::findOrCreate", "src/supla/storage/key_value.cpp:KeyValueElement"]}
{"id": "C09", "title": "Configuration store survives a save and reload", "statement": "Serialising the configuration store to a large enough buffer and loading the result into an empty store gives a store in which every key reads exactly as before.", "quantifier": "every reachable store content", "why_tests_cant": "content is arbitrary: any number of keys, any types and lengths", "anchors": ["src/supla/storage/key_value.cpp:KeyValue::serializeToMemory", "src/supla/storage/key_value.cpp:KeyValue::initFromMemory"]}
{"id": "C10", "title": "Loading a configuration image never reads outside it", "statement": "Loading a configuration store from any byte image, including a corrupted one, terminates and never reads a byte outside the image; reading back any loaded entry never reads outside that entry.", "quantifier": "every byte string of every length", "why_tests_cant": "the corrupted image is arbitrary", "anchors": ["src/supla/storage/key_value.cpp:KeyValue::initFromMemory", "src/supla/storage/key_value.cpp:KeyValueElement::getStringSize"]}
{"id": "C11", "title": "Erasing a configuration key removes that key only", "statement": "Erasing a key makes it read as absent, leaves every other key reading as before, and leaves the store usable.", "quantifier": "every reachable store and every key", "why_tests_cant": "depends on the position of the key in the internal order, i.e. on the whole history", "anchors": ["src/supla/storage/key_value.cpp:KeyValue::eraseKey"]}
{"id": "C12", "title": "A successful special-section write is what a later read returns", "statement": "If writing a registered special section reports success then an immediately following read of that section reports success and yields exactly the written bytes, whatever the medium held before.", "quantifier": "every medium content, section layout, data; with and without CRC and backup copy", "why_tests_cant": "depends on arbitrary previous medium contents", "anchors": ["src/supla/storage/storage.cpp:Storage::writeSection", "src/supla/storage/storage.cpp:Storage::readSection", "src/supla/storage/storage.cpp:Storage::updateStorage"]}
{"id": "C13", "title": "Special sections do not disturb each other or the state area", "statement": "Writing or deleting one special section never changes any byte outside that section's own storage range, so every other section reads exactly as before.", "quantifier": "every layout of non-overlapping registered sections, every history of section operations", "why_tests_cant": "layouts and histories unbounded", "anchors": ["src/supla/storage/storage.cpp:Storage::registerSection", "src/supla/storage/storage.cpp:Storage::writeSection", "src/supla/storage/storage.cpp:Storage::deleteSection"]}
{"id": "C14", "title": "A backed-up special section survives power loss during a write", "statement": "For a section with CRC and backup copy that currently reads as some value, if power is lost after any number of storage bytes of a write have reached the medium, the next read yields the old value or the new value, never a mixture and never an error.", "quantifier": "every old and new value, every crash point between physical writes", "why_tests_cant": "crash points x contents; a mixture with an accidentally matching CRC must be considered", "anchors": ["src/supla/storage/storage.cpp:Storage::writeSection", "src/supla/storage/storage.cpp:Storage::readSection"]}
{"id": "C15", "title": "Byte-addressed wear-levelled state survives power loss", "statement": "With byte wear levelling, after any history of complete state saves followed by a save interrupted at any physical write, the state found at next boot is one of: the last completely saved state or the one being saved; and which slot is used is always recoverable from the two address records.", "quantifier": "every history of saves, every crash point", "why_tests_cant": "unbounded histories x crash points", "anchors": ["src/supla/storage/state_wear_leveling_byte.cpp"]}
{"id": "C16", "title": "Sector wear-levelled state survives power loss", "statement": "With sector (flash) wear levelling, after any history of state saves and reboots, with power lost after any physical sector/byte write, the state found at next boot is the last completely saved one or the one being saved.", "quantifier": "every history of saves and reboots, every crash point", "why_tests_cant": "unbounded histories x crash points; boundary at sector wrap", "anchors": ["src/supla/storage/state_wear_leveling_sector.cpp"]}
{"id": "C17", "title": "State save throttling", "statement": "The device asks elements to save state no more often than the configured period, unless a save was explicitly scheduled earlier; a scheduled save is performed no later than requested; both hold across wrap-around of the 32-bit millisecond clock.", "quantifier": "every sequence of clock readings and schedule requests", "why_tests_cant": "clock wraps only every 49 days; schedules unbounded", "anchors": ["src/supla/storage/storage.cpp:Storage::saveStateAllowed", "src/supla/storage/storage.cpp:Storage::scheduleSave"]}
{"id": "C18", "title": "Button debounce never reports bounce", "statement": "A button reports alternating press and release events only; an event is reported only if the input has held the new level at every sample over the filter time, and no two events are closer than the debounce delay.", "quantifier": "every sequence of (time, level) samples", "why_tests_cant": "the input waveform is arbitrary", "anchors": ["src/supla/control/simple_button.cpp:ButtonState::update"]}
{"id": "C19", "title": "Multi-click counting is exact", "statement": "A burst of n presses separated by less than the multi-click time raises exactly one ON_CLICK_n event (n up to the configured maximum) and no ON_CLICK_m for m different from n; longer bursts raise ON_CRAZY_CLICKER at most once.", "quantifier": "every n, every admissible timing", "why_tests_cant": "timings are arbitrary, n up to 255", "anchors": ["src/supla/control/button.cpp:Button::onTimer"]}
{"id": "C20", "title": "Hold events", "statement": "A hold event is raised only while the button has been continuously pressed for at least the configured hold time, at most once per press unless repeat is configured, and repeats are at least the repeat time apart.", "quantifier": "every sequence of samples and times", "why_tests_cant": "arbitrary timings", "anchors": ["src/supla/control/button.cpp:Button::onTimer"]}
{"id": "C21", "title": "Conditions fire once per crossing", "statement": "An action attached with a condition is executed exactly at the readings where the condition becomes true after having been false (or at the first true reading), never repeatedly while it stays true.", "quantifier": "every sequence of readings and every threshold", "why_tests_cant": "reading sequences are unbounded", "anchors": ["src/supla/condition.cpp", "src/supla/conditions"]}
{"id": "C22", "title": "Local action dispatch is exact", "statement": "When an event occurs, exactly the enabled actions registered for that object and event are executed, each once, in registration order; disabling or enabling affects exactly the matching registrations and never an always-enabled one; removing a handler removes exactly its registrations.", "quantifier": "every history of registrations, enables, disables, removals and events", "why_tests_cant": "histories unbounded", "anchors": ["src/supla/local_action.cpp"]}
{"id": "C23", "title": "A timed relay turn-on ends", "statement": "A relay turned on with a duration is turned off by the first periodic pass later than that duration and not before it, also across wrap-around of the 32-bit millisecond clock, and stays off if nobody else acts.", "quantifier": "every duration, start time and schedule of periodic passes", "why_tests_cant": "49-day clock wrap and arbitrary schedules", "anchors": ["src/supla/control/relay.cpp:Relay::turnOn", "src/supla/control/relay.cpp:Relay::iterateAlways"]}
{"id": "C24", "title": "Relay state survives a restart", "statement": "Saving a relay's state and loading it after restart restores on/off state and the running timer kind exactly as configured, for every relay configuration and state.", "quantifier": "every state, function and stored flags combination", "why_tests_cant": "state space product", "anchors": ["src/supla/control/relay.cpp:Relay::onSaveState", "src/supla/control/relay.cpp:Relay::onLoadState"]}
{"id": "C25", "title": "Roller shutter motor outputs are never both on", "statement": "The up and down outputs of a roller shutter are never active at the same time, at no point between two pin writes, under any sequence of server commands, button actions, configuration changes, timer passes and clock readings.", "quantifier": "every history of API calls and clock readings", "why_tests_cant": "unbounded histories; interlock is a hardware-safety invariant", "anchors": ["src/supla/control/roller_shutter.cpp", "src/supla/control/roller_shutter_interface.cpp"]}
{"id": "C26", "title": "Roller shutter pauses before reversing", "statement": "Between switching one motor output off and switching the opposite one on at least 500 ms pass.", "quantifier": "every history of API calls, configuration changes and clock readings", "why_tests_cant": "unbounded histories, clock wrap", "anchors": ["src/supla/control/roller_shutter.cpp:RollerShutter::onTimer"]}
{"id": "C27", "title": "Roller shutter position stays in range", "statement": "The reported position is always between 0 and 100, or the 'unknown' marker, and while moving it changes monotonically in the direction of movement and never passes the end position.", "quantifier": "every history and every configured opening/closing time", "why_tests_cant": "histories and times unbounded", "anchors": ["src/supla/control/roller_shutter.cpp:RollerShutter::onTimer", "src/supla/control/roller_shutter_interface.cpp"]}
{"id": "C28", "title": "Roller shutter motor always stops", "statement": "If no further command arrives, a moving roller shutter motor is switched off within a bounded time.", "quantifier": "every reachable moving state and every schedule of timer passes", "why_tests_cant": "liveness over unbounded schedules", "anchors": ["src/supla/control/roller_shutter.cpp:RollerShutter::onTimer"]}
{"id": "C29", "title": "RGBW and dimmer fading reaches the target without overshoot", "statement": "While fading, the hardware value of each colour component moves monotonically towards its target, never overshoots it, stays within the hardware range, and reaches it after finitely many timer passes.", "quantifier": "every start value, target, fade time and schedule", "why_tests_cant": "all values x schedules", "anchors": ["src/supla/control/rgbw_base.cpp:RGBWBase::onFastTimer", "src/supla/control/rgbw_base.cpp:RGBWBase::getStep"]}
{"id": "C30", "title": "Turning a dimmer off and on restores its brightness", "statement": "Turning an RGBW/dimmer channel off and later on restores the last non-zero brightness and colour, under any interleaving of set commands; brightness values always stay in 0..100.", "quantifier": "every history of commands", "why_tests_cant": "histories unbounded", "anchors": ["src/supla/control/rgbw_base.cpp:RGBWBase::setRGBW", "src/supla/control/rgbw_base.cpp:RGBWBase::turnOn", "src/supla/control/rgbw_base.cpp:RGBWBase::turnOff"]}
{"id": "C31", "title": "Hex text conversion round trips", "statement": "Converting any byte array to hexadecimal text (with or without separator-free formatting) and back yields the original bytes; converting any text never writes outside the destination.", "quantifier": "every byte array of every length", "why_tests_cant": "infinite input set", "anchors": ["src/supla/tools.cpp:generateHexString", "src/supla/tools.cpp:hexStringToArray"]}
{"id": "C32", "title": "URL encoding round trips and respects the buffer", "statement": "URL-encoding a string into a buffer of any size never writes past it and always terminates the string; decoding an encoded string that fitted gives the original back.", "quantifier": "every string and buffer size", "why_tests_cant": "infinite input set; boundary at truncated escapes", "anchors": ["src/supla/tools.cpp:urlEncode", "src/supla/tools.cpp:urlDecodeInplace"]}
{"id": "C33", "title": "Every channel value change is reported", "statement": "After any history of value updates and send passes, if the current channel value differs from the value last handed to the protocol layers then an update is pending; writing an equal value neither marks the channel for sending nor raises a change event.", "quantifier": "every history of set-value / send passes", "why_tests_cant": "histories unbounded", "anchors": ["src/supla/channels/channel.cpp:Channel::setNewValue", "src/supla/channels/channel.cpp:Channel::sendUpdate"]}
{"id": "C34", "title": "Channel numbers stay unique", "statement": "After any history of creating, deleting and renumbering channels, no two live channels share a number and each number is inside the permitted range.", "quantifier": "every history of create/delete/renumber", "why_tests_cant": "histories unbounded; renumbering swaps recursively", "anchors": ["src/supla/channels/channel.cpp:Channel::setChannelNumber", "src/supla/device/register_device.cpp"]}
{"id": "C35", "title": "Uptime does not drift", "statement": "The uptime counter equals the whole number of seconds elapsed since start, with no drift, for any schedule of passes no more than an hour apart, across wrap-around of the 32-bit millisecond clock.", "quantifier": "every schedule of passes", "why_tests_cant": "drift and wrap only show over weeks", "anchors": ["src/supla/uptime.cpp:Uptime::iterate"]}
{"id": "C36", "title": "Click-sequence recognition", "statement": "A recorded press/release rhythm is accepted if and only if it has exactly as many intervals as the configured sequence and each is within the configured margin; recording never writes outside its buffer, however long the rhythm.", "quantifier": "every rhythm of every length and every configured sequence", "why_tests_cant": "rhythm lengths unbounded (8-bit counter wrap)", "anchors": ["src/supla/control/sequence_button.cpp:SequenceButton::onTimer"]}
{"id": "C37", "title": "OCR meter readings are plausible", "statement": "Once a reading has been accepted and a maximum increment is configured, the counter never decreases and never jumps by more than the maximum increment per elapsed photo period, except after a user reset; parsing any server reply never writes outside its buffers.", "quantifier": "every sequence of server replies and clock values", "why_tests_cant": "reply text is arbitrary; histories unbounded", "anchors": ["src/supla/sensor/ocr_impulse_counter.cpp:OcrImpulseCounter::parseStatus"]}
{"id": "C38", "title": "Impulse counter counts debounced edges", "statement": "The counter grows by exactly the number of active edges that come later than the debounce delay after the previously counted one; never by more than one per debounce delay.", "quantifier": "every sequence of samples", "why_tests_cant": "waveform arbitrary", "anchors": ["src/supla/sensor/impulse_counter.cpp:ImpulseCounter::onFastTimer"]}
{"id": "C39", "title": "Seconds counter measures enabled time", "statement": "The counter equals the whole seconds of the total time it was enabled, within one second, for any pattern of enable/disable and passes.", "quantifier": "every history of enable/disable/iterate", "why_tests_cant": "accumulated rounding only shows over long histories", "anchors": ["src/supla/sensor/seconds_counter.cpp"]}
{"id": "C40", "title": "Heating relay aggregator follows its thermostats", "statement": "After each evaluation pass, a pump/boiler relay controlled by the aggregator has been commanded on if any registered, not ignored thermostat is heating or cooling and commanded off otherwise; registering and unregistering thermostats never duplicates or loses others.", "quantifier": "every history of register/unregister/pass", "why_tests_cant": "histories unbounded", "anchors": ["src/supla/control/relay_hvac_aggregator.cpp"]}
{"id": "C41", "title": "Decimal text is read as the number it denotes", "statement": "A decimal number typed by a user or received in an MQTT command is read as that number: every 32-bit unsigned and signed number, and every fixed-point number (cut off behind the wanted decimal place); no text makes the program misbehave.", "quantifier": "every text", "why_tests_cant": "infinite input set; overflow only at the ends of the range", "anchors": ["src/supla/tools.cpp:stringToUInt", "src/supla/tools.cpp:stringToInt", "src/supla/tools.cpp:floatStringToInt"]}
{"id": "C42", "title": "Configuration form parsing is independent of how the form arrives", "statement": "The key/value pairs handed to the program for a submitted form are exactly the decoded fields of the form, in order, however the body is cut into received chunks, and the parser never writes outside its buffers, whatever the body.", "quantifier": "every body, every cutting into chunks, every sequence of receive results", "why_tests_cant": "chunk boundaries depend on the network; exponentially many cuttings", "anchors": ["src/supla/network/web_server.cpp:WebServer::parsePost", "extras/porting/esp-idf/esp_idf_web_server.cpp:EspIdfWebServer::handlePost"]}
{"id": "C43", "title": "No pending channel update waits for ever", "statement": "Whatever the other channels of the device do, a channel update that is pending while the device is connected is sent eventually; messages of channel updates are never sent less than 51 ms apart.", "quantifier": "every schedule of loop passes, every pattern of updates of the other channels, unbounded time", "why_tests_cant": "starvation needs unbounded schedules", "anchors": ["src/SuplaDevice.cpp:SuplaDeviceClass::iterate", "src/supla/element.cpp:Element::iterateConnected"]}
{"id": "C44", "title": "The registration message describes every channel", "statement": "After any history of creating, deleting and renumbering channels, the registration message lists every channel that holds a number exactly once and nothing else, and building it never touches a missing channel.", "quantifier": "every history of create/delete/renumber", "why_tests_cant": "histories unbounded", "anchors": ["src/supla/device/register_device.cpp:RegisterDevice::getChannelPtr_E", "src/supla/channels/channel.cpp:Channel::Channel"]}
{"id": "C45", "title": "The server knows the current value of every channel", "statement": "After any history of value changes, connects, registrations, connection losses and send passes of all protocol layers, while the device is registered the server has the current value of the channel or an update is pending.", "quantifier": "every interleaving of value changes, protocol state changes and passes", "why_tests_cant": "the race between registration and updates needs a particular interleaving", "anchors": ["src/supla/protocol/supla_srpc.cpp:SuplaSrpc::iterate", "src/supla/protocol/supla_srpc.cpp:SuplaSrpc::sendChannelValueChanged", "src/supla/channels/channel.cpp:Channel::sendUpdate"]}
{"id": "C46", "title": "Events of a colour light match its transitions", "statement": "For every old and new value of a colour light, each on/off event (red, green, blue, colour, white, whole light) is raised exactly once when that part starts or stops to shine and not otherwise, and each change event exactly when that part changed.", "quantifier": "every pair of light values", "why_tests_cant": "2^80 pairs of values", "anchors": ["src/supla/channels/channel.cpp:Channel::setNewValue(uint8_t,uint8_t,uint8_t,uint8_t,uint8_t)"]}
{"id": "C47", "title": "HVAC channel setters have their effect", "statement": "In every state of an HVAC channel, setting the output, percentage, a flag or a setpoint makes the channel show exactly what was asked for and leaves all other fields alone.", "quantifier": "every channel state and argument", "why_tests_cant": "state space too large to enumerate", "anchors": ["src/supla/channels/channel.cpp:Channel::setHvacIsOn", "src/supla/channels/channel.cpp:Channel::setHvacIsOnPercent", "src/supla/channels/channel.cpp:Channel::setHvacSetpointTemperatureHeat", "src/supla/channels/channel.cpp:Channel::setHvacFlagHeating"]}
{"id": "C48", "title": "OCR photos are paced", "statement": "A photo for meter reading is taken at most once per configured interval; a failed attempt is retried after 15 seconds; with automatic lighting a photo is only taken after the light has been on for 3 seconds.", "quantifier": "every schedule of passes, camera failures and clock values", "why_tests_cant": "timing histories are unbounded", "anchors": ["src/supla/sensor/ocr_impulse_counter.cpp:OcrImpulseCounter::iterateConnected", "src/supla/sensor/ocr_impulse_counter.cpp:OcrImpulseCounter::handleLedStateBeforePhoto"]}
{"id": "C49", "title": "Thermostat outputs are exclusive, timed and truthfully reported", "statement": "A thermostat never has its heating and cooling outputs on together, never goes from heating to cooling without being off in between, never uses an output its function forbids, keeps the configured minimum on and off times, and reports exactly what its outputs do.", "quantifier": "every history of control decisions, times, function changes and wirings", "why_tests_cant": "histories and clock values are unbounded", "anchors": ["src/supla/control/hvac_base.cpp:HvacBase::setOutput", "src/supla/control/hvac_base.cpp:HvacBase::updateChannelState", "src/supla/control/internal_pin_output.cpp:InternalPinOutput::setOutputValue"]}
{"id": "C50", "title": "The thermostat regulates as configured", "statement": "In HEAT (COOL) mode the output is a two-point controller around the set point with the configured hysteresis; OFF and the forced-off sensor mean off; a failed thermometer gives the configured error value; frost and overheat protection work in every mode; no mode does the opposite of what it is named.", "quantifier": "every history of temperatures, set points, modes, sensor failures and times", "why_tests_cant": "histories are unbounded; the boundary cases combine start-up, protections and sensor failures", "anchors": ["src/supla/control/hvac_base.cpp:HvacBase::iterateAlways", "src/supla/control/hvac_base.cpp:HvacBase::evaluateHeatOutputValue", "src/supla/control/hvac_base.cpp:HvacBase::evaluateCoolOutputValue", "src/supla/control/hvac_base.cpp:HvacBase::checkOverheatProtection", "src/supla/control/hvac_base.cpp:HvacBase::checkAntifreezeProtection", "src/supla/control/hvac_base.cpp:HvacBase::checkAuxProtection"]}
{"id": "C51", "title": "The weekly schedule is stored and followed slot by slot", "statement": "Every quarter of an hour of the week has its own entry; setting one changes only that one; a schedule is accepted exactly if its programs are valid and only configured programs are used; at every time of the week the thermostat is given off or a configured program within the limits; no request or server message reads or writes outside the tables.", "quantifier": "every schedule, every time of the week, every history of changes and server messages", "why_tests_cant": "16^672 schedules", "anchors": ["src/supla/control/hvac_base.cpp:HvacBase::setWeeklySchedule", "src/supla/control/hvac_base.cpp:HvacBase::getWeeklyScheduleProgramId", "src/supla/control/hvac_base.cpp:HvacBase::isWeeklyScheduleValid", "src/supla/control/hvac_base.cpp:HvacBase::setProgram", "src/supla/control/hvac_base.cpp:HvacBase::getProgramAt", "src/supla/control/hvac_base.cpp:HvacBase::handleWeeklySchedule"]}
{"id": "C52", "title": "Thermostat set points stay within the configured limits", "statement": "After any sequence of commands, server values, button presses, timers and schedule changes every set point lies between the configured minimum and maximum, and in heat/cool mode the cooling set point is above the heating set point by the configured distance.", "quantifier": "every configuration, every history", "why_tests_cant": "set points are changed from eight places, in any order", "anchors": ["src/supla/control/hvac_base.cpp:HvacBase::setTemperatureSetpointHeat", "src/supla/control/hvac_base.cpp:HvacBase::fixTemperatureSetpoints", "src/supla/control/hvac_base.cpp:HvacBase::applyNewRuntimeSettings", "src/supla/control/hvac_base.cpp:HvacBase::handleNewValueFromServer", "src/supla/control/hvac_base.cpp:HvacBase::changeTemperatureSetpointsBy"]}
{"id": "C53", "title": "A timed mode ends where it began; off and on restores the mode", "statement": "A mode given with a duration is in force until the duration is over and then the mode and set points from before (or the weekly schedule) are in force again; turning the thermostat off any number of times and on again brings back mode and set points.", "quantifier": "every previous state, timed mode, set points, duration, and all passes in between", "why_tests_cant": "durations of hours, passes in any number", "anchors": ["src/supla/control/hvac_base.cpp:HvacBase::applyNewRuntimeSettings", "src/supla/control/hvac_base.cpp:HvacBase::turnOn", "src/supla/control/hvac_base.cpp:HvacBase::storeLastWorkingMode", "src/supla/control/hvac_base.cpp:HvacBase::setTargetMode", "src/supla/control/hvac_base.cpp:HvacBase::iterateAlways"]}
{"id": "C54", "title": "Thermostat configuration messages are validated", "statement": "Whatever configuration messages the server sends and in whatever order: the configuration in use has every temperature within the device's limits, aux minimum and maximum and (heat/cool) freeze and heat protection at the configured distance, minimum times up to 600 s, error output within -100..100, an auxiliary thermometer that is a thermometer; the limits and read-only settings never change; a refused message changes nothing and an accepted one is applied.", "quantifier": "every configuration, every sequence of messages", "why_tests_cant": "the message has about forty fields whose validity depends on each other and on the device", "anchors": ["src/supla/control/hvac_base.cpp:HvacBase::handleChannelConfig", "src/supla/control/hvac_base.cpp:HvacBase::isConfigValid", "src/supla/control/hvac_base.cpp:HvacBase::fixReadonlyParameters", "src/supla/control/hvac_base.cpp:HvacBase::fixTempearturesConfig", "src/supla/control/hvac_base.cpp:HvacBase::applyConfigWithoutValidation"]}
{"id": "C55", "title": "The connection to the server is paced, honest and kept", "statement": "Connection attempts are at least one second apart, ten seconds after repeated failures or a refusal; when the connection is gone an attempt is made within ten seconds of passes; the device calls itself registered and ready only if the server accepted it on the present connection; a server silent for the activity timeout plus ten seconds is given up and no connection is dropped without a reason; a connection on which the server answers pings is kept for ever; every sixth failure in a row asks for a network restart; nothing the server sends leads to undefined behaviour.", "quantifier": "every sequence of passes, connection results, messages and network losses, every timing, clock wrap-around included", "why_tests_cant": "the behaviour depends on the whole history of the connection and on times up to days", "anchors": ["src/supla/protocol/supla_srpc.cpp:SuplaSrpc::iterate", "src/supla/protocol/supla_srpc.cpp:SuplaSrpc::ping", "src/supla/protocol/supla_srpc.cpp:SuplaSrpc::onRegisterResult", "src/supla/protocol/supla_srpc.cpp:SuplaSrpc::onVersionError", "src/supla/protocol/supla_srpc.cpp:SuplaSrpc::disconnect", "src/supla/protocol/supla_srpc.cpp:SuplaSrpc::setActivityTimeout"]}
{"id": "C56", "title": "A notification that is accepted is delivered as written", "statement": "Sending a notification returns true exactly when its context is registered, the device has been accepted by the server and is ready now; the message then sent is well formed and carries the title and body given (cut at the documented maximum), except for the fields left to the server; no text, however long, makes the device read or write outside its buffers; no context is registered twice, at most 50 are, and after the server has accepted the device the set it was told never changes.", "quantifier": "every text, every context, every history of registrations and acceptances", "why_tests_cant": "texts of any length and every registration order; a silent loss shows on no return value", "anchors": ["src/supla/device/notifications.cpp:Notification::send", "src/supla/device/notifications.cpp:Notification::registerNotification", "src/supla/device/notifications.cpp:Notification::onRegistered", "src/supla/protocol/supla_srpc.cpp:SuplaSrpc::sendNotification", "src/supla-common/srpc.c:srpc_ds_async_send_push_notification"]}
{"id": "C57", "title": "Device settings from the server take effect, all or nothing", "statement": "A configuration message of any content is read only within its bytes; one answered with an error has changed nothing; a message with known fields and exactly their bytes is accepted, each field is handled with its own bytes, the device then reports the values it was given, and every other setting stays; nothing is taken while a local change waits to be sent; the message the device sends holds every known field asked for and fits; sending that message back changes nothing.", "quantifier": "every message (fields, sizes, bytes), every stored configuration, every device", "why_tests_cant": "combinations of nine fields of different sizes with every stored state; the wrong ones are answered as accepted", "anchors": ["src/supla/device/remote_device_config.cpp:RemoteDeviceConfig::processConfig", "src/supla/device/remote_device_config.cpp:RemoteDeviceConfig::fillSetDeviceConfig", "src/supla/device/remote_device_config.cpp:RemoteDeviceConfig::processStatusLedConfig", "src/supla/device/remote_device_config.cpp:RemoteDeviceConfig::processHomeScreenContentConfig", "src/supla/device/remote_device_config.cpp:RemoteDeviceConfig::fillButtonVolumeConfig"]}
{"id": "C58", "title": "A setting changed on the device reaches the server, one changed on the server reaches the device", "statement": "A setting changed on the device stays marked until a complete message has carried it; on a registered device with no exchange open the complete configuration is sent by the first pass more than a second after the change; restarts and reconnections do not lose the mark; a setting sent by the server and answered as accepted has been taken when no local change was waiting.", "quantifier": "every history of local changes, messages, answers, passes, reconnections and restarts, every timing", "why_tests_cant": "the losses need a change to fall into a particular window of an exchange", "anchors": ["src/supla/protocol/supla_srpc.cpp:SuplaSrpc::handleDeviceConfig", "src/supla/protocol/supla_srpc.cpp:SuplaSrpc::handleSetDeviceConfigResult", "src/supla/protocol/supla_srpc.cpp:SuplaSrpc::iterate", "src/supla/storage/config.cpp:Config::setDeviceConfigChangeFlag", "src/supla/storage/config.cpp:Config::saveIfNeeded", "src/supla/device/remote_device_config.cpp:RemoteDeviceConfig::handleSetDeviceConfigResult"]}
{"id": "C59", "title": "The configuration of a channel is the same on the device and on the server once the exchange is over", "statement": "A setting of a channel changed on the device waits until it has been sent and stays marked in the storage until the server has confirmed it; nothing is sent before the server has sent its own configuration; a refused configuration is not sent again and again; a configuration changed on the server is taken when nothing was changed on the device; when no message is under way and nothing waits on the device, the server has the configuration of the device.", "quantifier": "every history of changes on both sides, registrations, lost connections, restarts, passes and interleavings of the messages", "why_tests_cant": "the losses need a change on one side to fall between a message and its answer", "anchors": ["src/supla/element_with_channel_actions.cpp:ElementWithChannelActions::handleChannelConfig", "src/supla/element_with_channel_actions.cpp:ElementWithChannelActions::handleSetChannelConfigResult", "src/supla/element_with_channel_actions.cpp:ElementWithChannelActions::iterateConnected", "src/supla/element_with_channel_actions.cpp:ElementWithChannelActions::onRegistered", "src/supla/sensor/general_purpose_channel_base.cpp:GeneralPurposeChannelBase::applyChannelConfig", "src/supla/sensor/general_purpose_channel_base.cpp:GeneralPurposeChannelBase::fillChannelConfig", "src/supla/sensor/therm_hygro_meter.cpp:ThermHygroMeter::applyChannelConfig"]}
{"id": "C60", "title": "The electricity meter reports what its driver measured", "statement": "A current or power that the driver sets is the current or power that the server and MQTT read back, within the resolution of the scale in use, saturating with the right sign beyond it, and is announced as measured; each reading is given to the channel. Whatever was measured before.", "quantifier": "every sequence of settings, resets and updates on all phases with any values; every timing of readings, passes and registrations", "why_tests_cant": "the choice of scale couples the three phases and the values are 64-bit; the loss of a reading depends on the durations of two consecutive readings", "anchors": ["src/supla/sensor/electricity_meter.cpp: updateChannelValues, setCurrent, setPowerActive, resetReadParameters, getPowerActive, isPowerActiveUsed, iterateAlways"]}
{"id": "C61", "title": "The configuration of an electricity meter agrees with the server", "statement": "A type of current transformer or phase LED that the meter supports, and LED thresholds in range, sent by the server are used and reported back unchanged; anything else is refused or corrected and the server is told; a meter never ends up with a type it does not have; thresholds are always in range and in order.", "quantifier": "every history of local changes, server edits, disconnections and restarts; every message, every stored content", "why_tests_cant": "the message has 64-bit masks and two thresholds whose meaning depends on the LED type; the result depends on the previous settings and on the state of the exchange", "anchors": ["src/supla/sensor/electricity_meter.cpp: applyChannelConfig, fillChannelConfig, onLoadConfig", "src/supla/tools.cpp: getBitNumber"]}
{"id": "C62", "title": "State of the elements without wear levelling: restart and power loss", "statement": "With wear levelling off, what the elements saved last is what they get after a restart, whatever the medium contained and whatever was saved before; a state of another size is not loaded, not even partly; saving writes nothing outside its own area; after a power loss at any byte of a save the elements get the old state, the new one or none; with stored channel numbers each element gets its own state whatever the order of the elements in the next firmware.", "quantifier": "all media, all histories of saves and restarts, all sizes below 65536, all contents, all points of power loss, all orders of elements", "why_tests_cant": "the outcome depends on every earlier save, on the contents of an unknown medium and on the byte at which the power fails; no sample of them excludes a torn state that passes the checksum", "anchors": ["src/supla/storage/simple_state.cpp: SimpleState::readState, writeState, prepareSaveState, finalizeSaveState, finalizeSizeCheck, initSectionPreamble", "src/supla/storage/state_storage_interface.cpp: loadPreambles", "src/supla/storage/storage.cpp: Storage::LoadStateStorage, WriteElementsState, IsStateStorageValid, updateStorage"]}
{"id": "C63", "title": "A button is either a server trigger or a local control, never both and never neither", "statement": "After any sequence of trigger configurations from the server, an event of a button sends its trigger exactly when the button has it, the program did not switch it off and the last configuration uses it (or all are published); a local operation that the device says the trigger replaces is not done while the server uses that trigger and is done when it does not; operations marked always enabled, of other buttons or of other events are never affected; the operation for the press is done once per click. Triggers in the queue are sent once each, lowest first, then a wanted configuration request; none from before the registration is sent after it.", "quantifier": "every kind of button, every list of registered operations, every sequence of configurations, every queue content", "why_tests_cant": "the switching depends on which operations are registered and on the whole history of configurations through shared enable flags; combinations of 13 triggers, 9 events and arbitrary registrations cannot be enumerated", "anchors": ["src/supla/control/action_trigger.cpp: ActionTrigger::onInit, parseActiveActionsFromServer, handleAction, onRegistered, handleChannelConfig", "src/supla/at_channel.cpp: AtChannel::sendUpdate, popAction, pushAction", "src/supla/local_action.cpp: enableAction, disableAction, enableOtherClients, disableOtherClients"]}
{"id": "C64", "title": "The network name of the device is a valid host name", "statement": "Whatever the device is called, its name in the network is made without touching memory outside its buffers, has at most 31 characters, consists of capitals, digits and single '-' not at the beginning or the end, is the name as far as it fits followed by '-' and the requested digits of the hardware address, and differs between two devices of the same name when those digits differ.", "quantifier": "every device name and prefix (all bytes), every address, every requested length, signed and unsigned characters", "why_tests_cant": "the cut-off position depends on every character before it; the out-of-bounds cases need particular characters in particular places", "anchors": ["src/SuplaDevice.cpp: SuplaDeviceClass::generateHostname", "src/supla/network/network.cpp: Network::generateHostname, setHostname"]}
{"id": "C65", "title": "Modes of the device, restarts and factory reset happen when they should and only then", "statement": "A configuration mode asked for by the server lasts five minutes and then ends with a restart unless somebody opens the page, one entered with the button lasts until it is left, a device without configuration waits in it; a restart that was asked for happens in the first pass after its time and not before; no sequence of events within two seconds makes the button erase the configuration, and an explicit factory reset does; the restart because of a missing connection never comes before its time and comes eventually; the update mode ends.", "quantifier": "every start state and every history of passes, actions, requests, visits, at all clock readings including wrap-around, and every network behaviour", "why_tests_cant": "timeouts of minutes to hours, clock wrap-around after 49.7 days and interleavings of requests with pending restarts", "anchors": ["src/SuplaDevice.cpp: iterate, setupDeviceMode, enterConfigMode, leaveConfigModeWithoutRestart, handleAction, handleLocalActionTriggers, checkIfRestartIsNeeded, iterateNetworkSetup, scheduleSoftRestart, disableCfgModeTimeout"]}
{"id": "C66", "title": "Switching the device off and on several times enters the configuration mode, and nothing else does", "statement": "The device enters the configuration mode exactly when, before the present start, it was switched on the configured number of times for a short time each, with no long time between; losses of power before the first pass, restarts that are not a loss of power (with the option) and a disabled function do not count; every other sequence of power cycles leaves it alone.", "quantifier": "every history of sessions (losses of power at any point), every timeout and limit, every clock reading, other writers of the configuration", "why_tests_cant": "the stored counter depends on the whole history of power cycles and on the point in time of each loss of power", "anchors": ["src/supla/device/enter_cfg_mode_after_power_cycle.cpp: onLoadConfig, iterateAlways", "src/supla/storage/config.cpp: saveWithDelay, saveIfNeeded"]}
{"id": "C67", "title": "An MQTT message controls the channel its topic names", "statement": "A message from the MQTT broker has an effect only if its topic starts with the prefix of the device followed by /channels/, the number of an existing channel and a slash, and then it is handed to that channel with the rest of the topic; every topic the device subscribes to for a channel reaches that channel; no topic makes the device read outside its memory.", "quantifier": "every prefix, topic (any characters, any length) and set of channels", "why_tests_cant": "topics come from the network and are arbitrary texts of arbitrary length", "anchors": ["src/supla/protocol/mqtt.cpp: Mqtt::processData, Mqtt::subscribeChannel, Mqtt::subscribe", "extras/porting/esp-idf/esp_mqtt.cpp: mqttEventDataProcess"]}
{"id": "C68", "title": "An MQTT command has the effect its payload says", "statement": "For every type of channel and every topic it subscribes to, the documented words (in any case), numbers from 0 to 100, temperatures and colours give the channel exactly the documented order, once; other words, numbers out of range and other topics give none.", "quantifier": "every channel type, topic, payload and state of the channel", "why_tests_cant": "payloads are arbitrary texts; each handler has its own parser and its own fall-through", "anchors": ["src/supla/protocol/mqtt.cpp: processRelayRequest, processRollerShutterRequest, processRGBWRequest, processDimmerRequest, processHVACRequest, isPayloadOn", "src/supla/tools.cpp: strncmpInsensitive, stringToColor"]}
{"id": "C69", "title": "MQTT topics and identifiers are exact and belong to one channel", "statement": "With every custom prefix and host name, the topics of all channels are the documented ones, nothing is cut off and no two channels or values share a topic; the identifiers for home automation discovery differ for different channels; a change of the configuration of a channel is published for exactly that channel.", "quantifier": "every prefix, host name, channel number and value name; every set of changed channels", "why_tests_cant": "a collision or a cut-off topic needs an extreme combination of lengths and numbers", "anchors": ["src/supla/protocol/mqtt_topic.cpp: MqttTopic", "src/supla/protocol/mqtt.cpp: onInit, publish, generateObjectId, getHADiscoveryTopic, notifyConfigChange", "extras/porting/esp-idf/esp_mqtt.cpp: publishChannelSetup, iterate"]}
{"id": "C70", "title": "Service commands are authorised, reach the addressed channel and are answered", "statement": "A service (CALCFG) request from the server without super-user authorisation changes nothing. An authorised one has exactly its documented effect, on the device itself for channel -1 and otherwise only on the addressed channel (or the owner of its subdevice). The answer goes to the sender with the same channel and command; an answer that comes later goes to whoever asked last and was not cleared.", "quantifier": "all requests (sender, channel, command, authorisation, data), all devices, all histories of pending requests", "why_tests_cant": "The space of requests times devices times interleavings of pending requests is unbounded; tests send a few requests to one element.", "anchors": ["src/supla/protocol/supla_srpc.cpp:SUPLA_SD_CALL_DEVICE_CALCFG_REQUEST", "src/supla/protocol/supla_srpc.cpp:CalCfgResultPending", "src/SuplaDevice.cpp:handleCalcfgFromServer", "src/supla/element.cpp:handleCalcfgFromServer"]}
{"id": "C71", "title": "The operating time of a light is the time it was on", "statement": "The operating time in seconds that a light relay reports never exceeds the time the light was really on since the counter was reset by more than a second and one pass of the main loop, and falls short of it by at most that much.", "quantifier": "all histories of switching, waiting, main-loop passes and resets, including wrap-around of the millisecond clock", "why_tests_cant": "Rounding is carried from pass to pass over years; errors of a fraction of a second per pass accumulate only over long histories.", "anchors": ["src/supla/control/light_relay.cpp:iterateAlways", "src/supla/control/light_relay.cpp:turnOn", "src/supla/control/light_relay.cpp:handleCalcfgFromServer"]}
{"id": "C72", "title": "Uptime, connection uptime and the cause of the last disconnection are reported truly", "statement": "The uptime a device reports is the whole seconds since its start and the connection uptime those since the connection, also when the millisecond clock wraps around. The reported cause of the last disconnection is that of the first failure after a connection, not of later attempts.", "quantifier": "all histories of main-loop passes, connections and losses", "why_tests_cant": "The millisecond clock wraps after 49 days; histories are unbounded.", "anchors": ["src/supla/uptime.cpp:iterate", "src/supla/uptime.cpp:setConnectionLostCause", "src/supla/uptime.cpp:resetConnectionUptime"]}
{"id": "C73", "title": "The clock keeps the time the server gave it", "statement": "Once the time is set, the clock of the device shows it and the seconds since, to a second; it says it is ready only if it was set; the server is asked for the time every five minutes while connected and not otherwise.", "quantifier": "all moments of setting, all sequences of timer ticks and connected passes", "why_tests_cant": "The error depends on when the first answer arrives relative to the start; tests set the time at once.", "anchors": ["src/supla/clock/clock.cpp:onTimer", "src/supla/clock/clock.cpp:parseLocaltimeFromServer", "src/supla/clock/clock.cpp:iterateConnected"]}
{"id": "C74", "title": "Conflicts between the channels of the device and of the server are found", "statement": "From the channel report of the server the device tells its conflict resolver exactly whether the server does not know one of its channels, whether the server has a channel the device lacks, and whether a type differs.", "quantifier": "all sets of channels and all reports of any length the protocol allows", "why_tests_cant": "Boundaries depend on the relation of the report length to the greatest channel number; tests use a few reports.", "anchors": ["src/supla/protocol/supla_srpc.cpp:onRegisterResultB", "src/supla/device/register_device.cpp:getMaxChannelNumberUsed", "src/supla/device/register_device.cpp:isChannelNumberFree", "src/supla/device/channel_conflict_resolver.h:onChannelConflictReport"]}
{"id": "C75", "title": "A LED shows what it is told to show", "statement": "A LED is lit exactly when its state says so; steady settings hold from the next timer tick; a blinking LED is on and off for its on- and off-time (plus at most one tick); told to blink n times in R groups it blinks exactly n*R times and stays off.", "quantifier": "all sequences of timer ticks, durations, limits, and positions of the millisecond clock", "why_tests_cant": "Phase lengths and counts depend on the timing of all ticks and on wrap-around of the clock.", "anchors": ["src/supla/control/blinking_led.cpp:updatePin", "src/supla/control/blinking_led.cpp:setCustomSequence", "src/supla/control/blinking_led.cpp:setInvertedLogic"]}
{"id": "C76", "title": "The status LED shows the condition of the device", "statement": "In automatic mode the status LED blinks at the documented rate of the condition of the device, with errors of any protocol before connecting before ready; the modes always-off and configuration-only keep it dark in all other conditions; identify blinks 15 times and then the status is shown again.", "quantifier": "all statuses, modes, lists of protocol layers and timer histories", "why_tests_cant": "The product of statuses, modes and protocol states is large and the custom sequences leave state behind.", "anchors": ["src/supla/device/status_led.cpp:iterateAlways", "src/supla/device/status_led.cpp:setAutoSequence", "src/supla/device/status_led.cpp:identify"]}
{"id": "C77", "title": "The configuration page is made of the settings, not by them", "statement": "The tags and attributes of the configuration page do not depend on the texts stored in the settings: a stored text is shown as it is and cannot add markup; passwords never appear on the page.", "quantifier": "all settings texts and all combinations of page elements", "why_tests_cant": "An injected text is one particular value among all texts; tests show a few.", "anchors": ["src/supla/network/web_sender.cpp:sendSafe", "src/supla/network/html/wifi_parameters.cpp:send", "src/supla/network/html/protocol_parameters.cpp:send", "src/supla/network/html/custom_sw_update.cpp:send"]}
{"id": "C78", "title": "What is on the configuration page is what gets stored", "statement": "Opening the configuration page in a browser and saving it unchanged leaves every setting as it is; filling in new values and saving stores exactly those values, in whatever pieces the form arrives; whatever is posted, no setting exceeds its limit.", "quantifier": "all settings, all combinations of page elements, all divisions of the form into chunks", "why_tests_cant": "The path goes through escaping, a browser, form encoding, a chunked parser and handlers; tests check each on a few values.", "anchors": ["src/supla/network/html/protocol_parameters.cpp:handleResponse", "src/supla/network/html/wifi_parameters.cpp:handleResponse", "src/supla/network/web_server.cpp:parsePost", "src/supla/storage/config.cpp"]}
{"id": "C79", "title": "Objects that register themselves are on their list exactly while they exist", "statement": "Elements, protocols, page elements, channels, action clients and network interfaces are on the list of their kind, once and in the order they were made, from when they are made until they are destroyed; walking the list never touches an object that no longer exists.", "quantifier": "all histories of making and destroying objects, with main loop turns in between", "why_tests_cant": "Which pointer dangles depends on the position of the destroyed object and on what was made before; tests destroy objects only at tear-down.", "anchors": ["src/supla/element.cpp", "src/supla/protocol/protocol_layer.cpp", "src/supla/network/html_element.cpp", "src/supla/channels/channel.cpp", "src/supla/local_action.cpp", "src/supla/correction.cpp", "src/supla/network/network.cpp:~Network"]}
{"id": "C80", "title": "Every element gets its turn", "statement": "An element that exists gets to send its data within a number of turns of the main loop that depends only on how many elements there are, however often other elements have something to send.", "quantifier": "all answers of all elements, all histories of making and destroying elements", "why_tests_cant": "Starvation is a property of unbounded runs.", "anchors": ["src/SuplaDevice.cpp:iterate", "src/supla/element.cpp"]}
{"id": "C81", "title": "A network interface that is enabled is used, a wired one first", "statement": "After the settings are loaded the main interface is a wired one if one is enabled, else an enabled one if there is any; loading again changes nothing; a request to set up is honoured once, for every enabled interface; in configuration mode Wi-Fi is set up even if it is switched off; the network is ready when an enabled interface is.", "quantifier": "all sets of interfaces in any order, all settings, all previous choices", "why_tests_cant": "The choice depends on the order in which interfaces are made and on what was chosen before; tests use one or two.", "anchors": ["src/supla/network/network.cpp:LoadConfig", "src/supla/network/network.cpp:PopSetupNeeded", "src/supla/network/network.cpp:SetConfigMode", "src/supla/network/network.cpp:IsReady"]}
{"id": "C82", "title": "The device knows whether it is configured", "statement": "The device takes its configuration for complete exactly if everything needed by the interface it will use and by the protocols that are on is set; the answer does not depend on how often it was asked for.", "quantifier": "all sets of interfaces and all settings", "why_tests_cant": "The wrong answer needs a combination of interface order, disabled interfaces and missing settings.", "anchors": ["src/supla/storage/config.cpp:isMinimalConfigReady", "src/SuplaDevice.cpp:loadDeviceConfig"]}
{"id": "C83", "title": "The page shows the last states, newest first", "statement": "The configuration page lists the reports of state that were logged, newest first, each complete with its time; only the last one shown may be cut, and then it ends with three dots. A status that stays is logged once. Configuration mode stays until restart, offline mode or missing identity. Showing the log reads nothing but the log and gives back the lock it takes.", "quantifier": "all histories of reports with any texts and times", "why_tests_cant": "The log overflows only after many reports of particular lengths.", "anchors": ["src/supla/device/last_state_logger.cpp", "src/SuplaDevice.cpp:status", "src/supla/network/html/device_info.cpp:send"]}
{"id": "C84", "title": "A latching relay gets one pulse per change and ends where it was told", "statement": "Every change gives the coil one pulse of more than 200 ms that ends; between pulses a command puts the relay, whose position is read back, where the command says, so it ends where the last command puts it; a time limit switches it off when the time is over, whatever happened in between, and survives a restart.", "quantifier": "all histories of commands, passes and changes by hand, all times and limits", "why_tests_cant": "The failures need a command within a pulse, a change by hand during a time limit, or a restart at the right moment.", "anchors": ["src/supla/control/bistable_relay.cpp", "src/supla/control/relay.cpp:iterateAlways"]}
{"id": "C85", "title": "The firmware digest is SHA-256, however the data arrive", "statement": "Whatever bytes are given to the hash object, in whatever pieces (empty, shorter than a block, many blocks, straddling block borders), the digest it returns is the SHA-256 of FIPS 180-4 of all the bytes in order; asking for fewer than 32 bytes gives a prefix of it; and after a digest the object is as if newly made.", "quantifier": "all byte strings of all lengths, all ways of cutting them into updates, all digest lengths up to 32", "why_tests_cant": "There are unboundedly many messages and cuts; test vectors cover a handful, and an error in one round constant, one block border or the padding of one residue of the length shows only for some of them.", "anchors": ["src/nettle/sha256.c:sha256_update", "src/nettle/sha256.c:sha256_digest", "src/nettle/sha256-compress.c:_nettle_sha256_compress", "src/nettle/macros.h:MD_UPDATE", "src/nettle/write-be32.c:_nettle_write_be32", "src/supla/sha256.cpp:Supla::Sha256"]}
{"id": "C86", "title": "A signature is accepted exactly when it is a valid RSA signature", "statement": "For every public key (any bytes), every message hashed in any pieces and every signature, the verifier answers yes exactly when the modulus is odd and the signature is valid for the message under RSASSA-PKCS1-v1_5 with SHA-256 and exponent 65537 (RFC 8017): below the modulus, and raised to the exponent equal to the full encoded message with all its padding. With an even or too short modulus it answers no, and it never hangs or stops.", "quantifier": "all keys, messages, cuts into pieces and signatures; limbs of any width of at least 17 bits", "why_tests_cant": "A verifier that ignores some padding bytes, accepts a signature above the modulus or errs in one branch of the modular power behaves well on every genuine signature; only forgeries or rare sizes show it.", "anchors": ["src/supla/rsa_verificator.cpp:Supla::RsaVerificator", "src/nettle/rsa-sha256-verify.c:rsa_sha256_verify", "src/nettle/rsa-verify.c:_rsa_verify", "src/nettle/pkcs1.c:_pkcs1_signature_prefix", "src/nettle/pkcs1-rsa-sha256.c:pkcs1_rsa_sha256_encode", "src/nettle/mini-gmp.c:mpz_powm"]}
{"id": "C87", "title": "Only firmware signed for the device is ever started", "statement": "Whatever the update server sends, in whatever pieces, and whatever calls of the network and flash layers fail, the device switches to new firmware only if it has a public key, the file arrived whole, and the file is a program followed by a 512-byte signature of exactly that program valid for the key, and the expected footer; and if network and flash work, such a file is installed.", "quantifier": "all server answers and files, all cuts into reads, all failures of the platform calls, all keys", "why_tests_cant": "An attacker controls every byte the server sends; the property is about all of them and about every point at which the download can break.", "anchors": ["extras/porting/esp-idf/esp_idf_ota.cpp:Supla::EspIdfOta::iterate", "extras/porting/esp-idf/esp_idf_ota.cpp:Supla::EspIdfOta::verifyRsaSignature"]}
{"id": "C88", "title": "Asking for an update works for every device and every way the answer arrives", "statement": "If the fields of the query fit, the query is sent, and it is complete; if the server's answer, arriving in any pieces, announces an update, the file is fetched; no answer, however short, leads to undefined behaviour; giving up frees what was allocated.", "quantifier": "all field contents, all cuts of the answer into reads, all failures of the platform calls", "why_tests_cant": "How an answer is cut into reads depends on the network; tests receive it in one piece.", "anchors": ["extras/porting/esp-idf/esp_idf_ota.cpp:Supla::EspIdfOta::iterate", "src/supla/tools.cpp:stringAppend"]}
{"id": "C89", "title": "The big-number arithmetic behind the firmware signature check is exact", "statement": "Import of octets, comparison, multiplication, the precomputed inverse, the division with that inverse and the modular power compute exactly the mathematical result for numbers of any length, every internal assertion holds, and the signature check built on them gives the same verdict as RFC 8017. It does so on every supported platform.", "quantifier": "all limb lists (any length), all keys, signatures and hashed texts; all platforms given by limb width and width of unsigned", "why_tests_cant": "The wrong results of carry and quotient-estimate code appear for about one operand in 2^32; no sample of keys or numbers reaches them.", "anchors": ["src/nettle/mini-gmp.c:mpz_powm", "src/nettle/mini-gmp.c:mpn_invert_3by2", "src/nettle/mini-gmp.c:mpn_div_qr_pi1", "src/nettle/mini-gmp.c:mpz_import", "src/nettle/rsa-verify.c:_rsa_verify", "src/supla/rsa_verificator.cpp:verify"]}
{"id": "C90", "title": "Server messages are acted on exactly as sent", "statement": "Every message of the SUPLA protocol a device understands (registration results, new values for a channel or a group, channel and device configurations, schedules, service requests, state requests, local time, timeouts) is read field by field as the server wrote it, and given to exactly the element whose channel it names; answers go back with the right channel, receiver and verdict. A packet that is not, octet for octet, a message of the protocol has no effect, and no packet - whatever its call number, length and size fields - makes the device copy beyond a structure or read memory that was never written.", "quantifier": "all call numbers, all packet contents of any length, all sets of elements and all behaviours of their handlers", "why_tests_cant": "Packet contents are unbounded and hostile sizes come in endless variants; tests try a few well-formed messages.", "anchors": ["src/supla-common/srpc.c: srpc_getdata", "src/supla/protocol/supla_srpc.cpp: messageReceived", "src/supla/element.cpp: getElementByChannelNumber"]}
{"id": "C91", "title": "What a photovoltaic inverter reports is what the device shows", "statement": "The measurements an inverter (Fronius, Afore) or the SolarEdge monitoring service returns are assigned to the quantities they belong to, whatever else the answer contains, however it is split into reads and however long its lines are; no answer, even a broken one, makes the device read or write memory it does not own; a broken or interrupted answer does not disturb the next one; and the request sent names the site, device and key that were configured.", "quantifier": "all answers, lines and fields of any length and content, all sequences of answers, all configured identifiers and passwords", "why_tests_cant": "Answers come from devices and services outside anyone's control and are unbounded text.", "anchors": ["src/supla/pv/fronius.cpp: iterateAlways, iterateConnected", "src/supla/pv/afore.cpp: iterateAlways", "src/supla/pv/solaredge.cpp: iterateAlways, sendRequest"]}
{"id": "C92", "title": "A general purpose meter or measurement shows the configured value and counts every pulse", "statement": "The value of a general purpose channel is its raw value times the multiplier by the divider plus the added value, shown between its units; it is read again once per configured interval, at every phase of the clock; a meter counts every increment and decrement exactly from the moment it is switched on, keeps its count over restarts, and is reset only by an authorised request, if resetting is supported.", "quantifier": "all raw values, multipliers, dividers, added values, units, buffer sizes and intervals; all schedules of passes; all sequences of counts, resets, saves and restarts", "why_tests_cant": "Values, schedules and histories are unbounded; rounding only shows on values no test tries.", "anchors": ["src/supla/sensor/general_purpose_channel_base.cpp: getCalculatedValue, getFormattedValue, iterateAlways, setRefreshIntervalMs", "src/supla/sensor/general_purpose_meter.cpp: handleAction, handleCalcfgFromServer, onSaveState, onLoadState", "src/supla/sensor/memory_variable_driver.h: value"]}
{"id": "C93", "title": "One button for a group of lights", "statement": "A button attached to a group of lights switches the whole group off if anything it controls is lit, and otherwise lights everything with the brightness it had before; off and on again restores every light; holding it gives everything in the group the same brightness. What the button was not set to control - a light, or the colour or white of a light - is never touched.", "quantifier": "all groups of lights of all kinds and settings, all sequences of presses and holds at all times", "why_tests_cant": "Groups, settings and histories are unbounded, and the members may be of different kinds.", "anchors": ["src/supla/control/group_button_control_rgbw.cpp: handleToggle, handleIterate, handleTurnOn, handleTurnOff, onLoadConfig, addToGroup", "src/supla/control/rgbw_base.cpp: iterateDimmerRGBW, setRGBW"]}
{"id": "C94", "title": "The server is checked as the settings ask", "statement": "An encrypted connection is established only with a server whose certificate is signed by the certificate the settings call for: at the default security level the one for public servers if the name is in supla.org and otherwise the one for private servers, at level 1 the user's own, and with any server only at level 2; if the certificate called for is missing, with none. A server trusted by the settings is accepted. The device connects to the server and port the user entered (only the misspelling srv of a public server is corrected), and encrypts exactly when the port is 2016 or none is set and encryption is on.", "quantifier": "all settings of the firmware and of the storage, all server names and ports, all sequences of connections and of clients handed to the device, all servers that may answer", "why_tests_cant": "Settings, names and answering servers are unbounded; an impostor is not part of any test bench.", "anchors": ["src/supla/protocol/supla_srpc.cpp: onLoadConfig, onInit, initClient, setNetworkClient, iterate", "src/supla/device/register_device.cpp: setServerName, isSuplaPublicServerConfigured", "src/supla/storage/config.cpp: getSuplaServerPort", "src/supla/network/client.cpp: connect, setCACert", "src/supla/arduino_esp_platform.cpp: connectImp"]}
{"id": "C95", "title": "Conditions on what an electricity meter measures", "statement": "A condition on the voltage, current or power of a phase, or on a total, compares the value that was measured last, in the units of the condition and within the scale of the meter, runs its action exactly when the value starts to meet it, and never compares a quantity that is not measured. Totals are the sums of the phases.", "quantifier": "all histories of readings, withdrawals and publications of a three-phase meter, all phases, all conditions and thresholds", "why_tests_cant": "The scale changes with the values of all phases and with the history; overflow appears only at sums of unusual size.", "anchors": ["src/supla/condition_getter.cpp: getMeasurement, getValue of the getters", "src/supla/condition.cpp: handleAction, checkConditionFor", "src/supla/sensor/electricity_meter.cpp: updateChannelValues, resetReadParameters"]}
{"id": "C96", "title": "Roller shutters operated by button presses: pulses are well formed and the drive does what the device believes", "statement": "A roller shutter whose drive is operated by momentary presses (two buttons, where a press while moving stops the drive, or three buttons with a separate stop) never has two buttons pressed at once; every press is released more than 200 ms later, in the first timer pass after that; two presses are more than 700 ms apart; and at every moment the drive, as the sequence of presses leaves it, moves in the direction the device believes (in particular it is still when the device says so), and the setting for a motor mounted upside down is respected.", "quantifier": "every history of commands, server messages, configuration messages, calibration requests and timer passes at any times, for every start configuration and both kinds of drive", "why_tests_cant": "a test fixes one sequence of commands; a wrong extra pulse appears only for particular interleavings of a command with a movement in progress, and leaves the drive and the program out of step for all later commands", "anchors": ["src/supla/control/bistable_roller_shutter.cpp: BistableRollerShutter::stopMovement, relayUpOn, relayDownOn, onTimer", "src/supla/control/tripple_button_roller_shutter.cpp: TrippleButtonRollerShutter::stopMovement, switchOffRelays, inMove", "src/supla/control/roller_shutter.cpp: RollerShutter::onTimer"]}
{"id": "C97", "title": "Opening the configuration page and saving it untouched leaves every setting as it was", "statement": "If a user opens the configuration page and presses Save without changing anything, the browser sends back the values the page shows, and every setting of the elements on the page (corrections, button times, screen, volume, LEDs, restrictions of the local interface, phase LED, custom numbers and choices, roller shutters, thermostats) is afterwards what it was before, and nothing is noted as a change.", "quantifier": "all stored settings, all ways printf may round, all pages (hidden and disabled parts, sets of channels), all roller shutter and thermostat states", "why_tests_cant": "A page test checks some values of some settings; a value that is shown differently than it is read appears only for particular combinations of stored values, offered choices and channel numbers.", "anchors": ["src/supla/network/html/hvac_parameters.cpp: send, handleResponse, onProcessingEnd", "src/supla/network/html/roller_shutter_parameters.cpp: send, handleResponse", "src/supla/network/html/{channel_correction,button_hold_time_parameters,button_multiclick_parameters,screen_brightness_parameters,screen_delay_parameters,volume_parameters,status_led_parameters,power_status_led_parameters,disable_user_interface_parameter,em_phase_led,custom_parameter,select_input_parameter}.cpp: send, handleResponse", "src/supla/network/web_sender.cpp: send, sendSelectItem", "src/supla/tools.cpp: floatStringToInt, stringToInt, stringToUInt"]}
{"id": "C98", "title": "An open window is reported when, and only when, the temperature drops", "statement": "The temperature drop sensor reports a window as opened only because of a reading more than two degrees lower than the average of some minutes before; it reports such a drop with the reading that shows it; a report ends only when the temperature is no longer that low or after half an hour, ends when it is as warm again as it was, and no report lasts longer than half an hour (up to the next reading). Without any reading nothing is reported.", "quantifier": "all thermometers (histories of readings, including none), all timings of passes up to 24 days apart, across every wrap of the millisecond clock", "why_tests_cant": "The verdict depends on a ring of 60 readings at an arbitrary position, and the failures need a lost thermometer or a drop at one particular millisecond.", "anchors": ["src/supla/sensor/temperature_drop_sensor.cpp: iterateAlways, detectTemperatureDrop, getAverage", "src/supla/sensor/temperature_drop_sensor.h"]}
{"id": "C99", "title": "A binary sensor tells the state of its input", "statement": "What a binary sensor reports is its input as it was at most one reading interval ago, whatever inversion the server sets; the inversion is the newest the server has sent, also after a restart; and the turn-on and turn-off events a user hangs actions on follow the state of the sensor as the device and MQTT see it.", "quantifier": "all histories of passes, inputs, configurations and registrations, all reading intervals, across wraps of the millisecond clock", "why_tests_cant": "Tests fix one schedule and one inversion; the event sequence depends on when the inversion changes relative to the input.", "anchors": ["src/supla/sensor/binary_base.cpp: iterateAlways, handleChannelConfig, handleChannelConfigFinished, onLoadConfig", "src/supla/sensor/binary.cpp", "src/supla/sensor/virtual_binary.cpp", "src/supla/channels/binary_sensor_channel.cpp: getValueBool", "src/supla/channels/channel.cpp: setNewValue(bool)"]}
{"id": "C100", "title": "A sensor driver reports what the chip measured, and says when it cannot", "statement": "For every word a thermocouple chip or humidity chip sends, the temperature reported is the one the word denotes, and a fault, a missing chip or a damaged frame is reported as not available. After a failed attempt the last value is kept for at most three attempts, then the sensor is not available; no measured value is taken for a failure, and no failure for a measured value.", "quantifier": "all words and frames of the chips (every temperature, chip temperature, fault bit, single damaged bit), all histories of successful and failed attempts", "why_tests_cant": "Each chip has up to 2^32 words, and the mistaken ones need one particular relation between two temperatures; the retry filters depend on whole histories of failures.", "anchors": ["src/supla/sensor/MAX6675_K.cpp: getValue", "src/supla/sensor/MAXThermocouple.cpp: getValue, readDouble", "src/supla/sensor/DS18B20.h: getValue", "src/supla/sensor/DHT.h", "src/supla/sensor/SHT3x.h", "src/supla/sensor/Si7021_sonoff.cpp", "src/supla/sensor/bh1750.h", "src/supla/sensor/max44009.h", "src/supla/sensor/BME280.h", "src/supla/sensor/AHT.h"]}
{"id": "C101", "title": "The distance sensor follows the echo, ignores one outlier and reports when there is none", "statement": "With five echoes, what is reported lies between the distances of the others whatever a single one of them says, and always within the configured range; after four attempts without echo, or if there never was one, the sensor is reported as not available until there is an echo again; a distance is never sent as the number for 'not available', and every configured range gives a defined result.", "quantifier": "all histories of echoes, all ranges, both kinds of char", "why_tests_cant": "Wrong averages depend on which of five places holds the outlier; the count of failures wraps only after 128 or 256 attempts.", "anchors": ["src/supla/sensor/HC_SR04.cpp: getValue", "src/supla/sensor/HC_SR04.h", "src/supla/sensor/distance.cpp", "src/supla/tools.cpp: adjustRange"]}
{"id": "C102", "title": "A number typed on the configuration page becomes the setting", "statement": "A number the user types into a field of the configuration page, within the limits the page states, is afterwards the setting, exactly, and no other setting of the element changes; a number outside the limits is refused or taken as the limit; it is never taken as another number.", "quantifier": "all texts that denote a number (sign, digits, decimal places), all previous settings, all elements with number fields", "why_tests_cant": "Limits, truncation to 8 or 16 bits and signs have to be right for every number and every field; a test types a few numbers.", "anchors": ["src/supla/network/html/channel_correction.cpp: handleResponse", "src/supla/network/html/button_hold_time_parameters.cpp", "src/supla/network/html/button_multiclick_parameters.cpp", "src/supla/network/html/screen_delay_parameters.cpp", "src/supla/network/html/volume_parameters.cpp", "src/supla/network/html/custom_parameter.cpp", "src/supla/network/html/screen_brightness_parameters.cpp", "src/supla/network/html/disable_user_interface_parameter.cpp", "src/supla/network/html/em_phase_led.cpp", "src/supla/network/html/roller_shutter_parameters.cpp", "src/supla/network/html/hvac_parameters.cpp", "src/supla/tools.cpp: floatStringToInt, stringToInt, stringToUInt"]}
{"id": "C103", "title": "An internal output does what it was told, for as long as it was told", "statement": "An output pin that is switched by actions, by the program or by a thermostat has the level that means on or off as told last, with either polarity; turned on or off for a time it changes back at the first pass of the main loop after that time and not before; after start-up it is in its default state; and when a thermostat asks for on or off it is on or off.", "quantifier": "all histories of commands, actions, passes and thermostat requests, all durations, all times across wraps of the millisecond clock", "why_tests_cant": "The timer runs over a wrapping clock, and the thermostat's request is compared with its own last request instead of the pin: only particular mixtures of actions, timers and requests show it.", "anchors": ["src/supla/control/internal_pin_output.cpp: turnOn, turnOff, toggle, iterateAlways, setOutputValue, onInit", "src/supla/control/output_interface.h"]}
{"id": "C104", "title": "A Somfy motor understands every button that is pushed", "statement": "For every button, address and rolling code the remote control sends three frames that a receiver of the protocol accepts, with exactly that button and address; no code is used twice in 65536 buttons, and the code a receiver sees goes up by one with every button.", "quantifier": "all buttons, addresses, rolling codes and sequences of buttons, both byte orders", "why_tests_cant": "Checksum and obfuscation depend on every bit of the frame; the order of the code's octets shows only when it carries.", "anchors": ["src/SuplaSomfy.cpp: PushButton, SendCommand, Checksum, Obfuscation", "src/SuplaSomfy.h"]}
{"id": "C105", "title": "Only a good device passes the factory test", "statement": "A device is reset and released by the factory test only if all its start-up checks were right, it was then registered and ready, its own test was then done and the configuration button was then pressed, with no failed step or unexpected action before; a device for which this happens in time is released at the next pass; a test that is late or fails ends in a restart at the next pass.", "quantifier": "all histories of start-up, main loop passes, status changes, buttons, unexpected actions and the device's own calls; all times and timeouts", "why_tests_cant": "Orders of events on a production line cannot be enumerated; an unlucky event between two passes is never reproduced.", "anchors": ["src/supla/device/factory_test.cpp: onInit, iterateAlways, handleAction, waitForConfigButtonPress, setTestFailed", "src/supla/device/factory_test.h"]}
{"id": "C106", "title": "Sensors fed by files, commands and topics show what their source says (Linux)", "statement": "A number shown was in the source under the sensor's key (or line, or topic) not longer than the refresh time ago; a number that is there is shown, for each of several sensors sharing a parser; counters and energies never fall because a source is missing; a source or key that is gone is shown as not available at the next refresh.", "quantifier": "all sources changing over time, all sequences of readings by any number of sensors sharing a parser, all keys, multipliers, lines and topics", "why_tests_cant": "Depends on the interleaving of sensors with the refresh time and on what every other sensor asked for before.", "anchors": ["extras/porting/linux/supla/parser/parser.cpp: refreshParserSource, setRefreshTime", "extras/porting/linux/supla/parser/simple.cpp: getValue, refreshSource", "extras/porting/linux/supla/parser/json.cpp: getValue, refreshSource", "extras/porting/linux/supla/sensor/thermometer_parsed.cpp: getValue", "extras/porting/linux/supla/sensor/impulse_counter_parsed.cpp: getValue", "extras/porting/linux/supla/sensor/electricity_meter_parsed.cpp: readValuesFromDevice", "extras/porting/linux/supla/source/mqtt_src.cpp: getContent"]}
{"id": "C107", "title": "States read from a source, and the actions they trigger, follow the manual (Linux)", "statement": "Every reading is taken for on, off or invalid as the manual says; actions are sent exactly at the changes of the state (or value) they are configured for, in order, and never for repeated readings; the state that triggers actions is the state reported.", "quantifier": "all readings, lists of on-values, histories of readings and configured actions", "why_tests_cant": "Histories of readings are unbounded; a value that is never tried looks right.", "anchors": ["extras/porting/linux/supla/sensor/sensor_parsed.cpp: getStateValue, setLastState, setLastValue", "extras/porting/linux/supla/sensor/binary_parsed.cpp: getValue", "extras/porting/linux/supla/control/cmd_relay.cpp: isOn, isOffline", "extras/porting/linux/supla/control/custom_relay.cpp: isOn, isOffline", "extras/examples/linux/README.md"]}
{"id": "C108", "title": "Files as sources expire, files as storage keep (Linux)", "statement": "A file that is there is given exactly if it has not expired, one that is gone for three readings at most, and nothing expired is ever given; after a commit a restart finds exactly what was written; a power failure leaves the data as before or after; what could not be written is written later; no write is undefined.", "quantifier": "all histories of a file's existence, age and content; all writes, commits and moments of power failure", "why_tests_cant": "Crash points and orders of deletion, expiry and reading cannot be enumerated.", "anchors": ["extras/porting/linux/supla/source/file.cpp: getContent", "extras/porting/linux/linux_file_storage.cpp: init, readStorage, writeStorage, commit"]}
{"id": "C109", "title": "What is stored on the flash file system is what is read, until it is erased", "statement": "A value accepted under a key is read back exactly, whatever its size, and whatever is read under the key is that value; writing one key changes no other; a read fills the caller's buffer or fails; erasing removes the value; a factory reset leaves nothing, also after a restart; a certificate is read as a terminated text that stays within the buffer.", "quantifier": "all histories of writes, erases, resets, commits and restarts; all keys, values and sizes", "why_tests_cant": "Sizes on both sides of the limit between list and files, in every order, cannot be enumerated.", "anchors": ["src/supla/storage/littlefs_config.cpp: setBlob, getBlob, getBlobSize, removeAll, commit, init, getCustomCA, setCustomCA", "src/supla/storage/key_value.cpp: eraseKey, removeAll"]}
{"id": "C110", "title": "Readings keep their value on boards without 64-bit numbers", "statement": "On a board whose double has 32 bits, the eight bytes of a channel value say the number that was measured: 0 stays 0, a missing reading stays missing, the same reading gives the same bytes and different readings different ones; reading the bytes back gives the same number.", "quantifier": "all 2^32 readings and all contents of the memory not set", "why_tests_cant": "The effect depends on what is on the stack, and tests run on machines whose double has 64 bits.", "anchors": ["src/supla/tools.cpp: float2DoublePacked, doublePacked2float", "src/supla/IEEE754tools.h", "src/supla/channels/channel.cpp: setNewValue(double), getValueDouble"]}
{"id": "C111", "title": "A lamp's operating time and lifespan survive restarts", "statement": "The lifespan and the operating time of a light source are kept over restarts as they were last saved; over all restarts the reported time never exceeds the time the lamp was on; only an authorised request of the right size changes them, exactly as it says, and a reset that was acknowledged is not undone by a power cut.", "quantifier": "all histories of switching, passes, requests, saves and restarts at any moment", "why_tests_cant": "a power cut can fall between any two events; the timestamp has no initial value", "anchors": ["src/supla/control/light_relay.cpp:LightRelay::handleCalcfgFromServer", "src/supla/control/light_relay.cpp:LightRelay::onLoadState", "src/supla/control/light_relay.cpp:LightRelay::onSaveState"]}
{"id": "C112", "title": "A changed setting is in flash soon, and the flash is spared", "statement": "A setting changed on the device, by the server or by the page with a request to save it is in flash no later than the longest delay plus one period of the main loop after the change, whatever other settings change meanwhile, and from then on survives a loss of power; the flash holds only values that were set; and however often settings change, the flash is not written more often than once per shortest delay.", "quantifier": "every history of changes, requests, passes of the main loop, commits and losses of power; every delay and clock value including the wrap of the millisecond counter", "why_tests_cant": "The moment of power loss, the interleaving of requests with different delays and the wrap of the counter after 49 days cannot be enumerated", "anchors": ["src/supla/storage/config.cpp: Config::saveWithDelay, Config::saveIfNeeded", "src/SuplaDevice.cpp: iterate, softRestart"]}
{"id": "C113", "title": "A light gets the duty asked for, on its own pins", "statement": "Whatever lights a device has and in whatever order they are set up, a light writes each colour and brightness to its own output and to no other; the duty written is the value asked for to within one step of the output, zero is off, more is never less, every value above zero gives light and the highest value is fully on.", "quantifier": "every list of lights on native pins and on an output expander, every platform, every colour and brightness from 0 to 1023", "why_tests_cant": "The number of lights, their order and the combinations of platform and expander cannot be enumerated, and the outputs cannot be seen by a test on the host", "anchors": ["src/supla/control/rgbw_leds.cpp: setRGBWValueOnDevice, onInit", "src/supla/control/rgb_leds.cpp", "src/supla/control/dimmer_leds.cpp", "src/supla/control/EXT_PCA9685.h: customAnalogWrite"]}
{"id": "C114", "title": "The position shown is the position of the shutter", "statement": "A shutter that moves at constant speed is where the device shows it, up to a bounded error per movement; sent to a position it stops there, and a full movement up or down ends with the shutter at its end and shown there, whatever the error was.", "quantifier": "every travel time, wiring, rounding mode, timer schedule and history of commands", "why_tests_cant": "The error of each movement depends on the schedule and adds up over histories; the shutter itself is not part of a unit test.", "anchors": ["src/supla/control/roller_shutter.cpp: RollerShutter::onTimer", "src/supla/control/roller_shutter_interface.cpp: setTargetPosition, handleAction"]}
{"id": "C115", "title": "PZEM meters show what the module read", "statement": "For each driver of a PZEM module (one module of version 2 or 3, three modules of version 3 on separate lines or on one line with addresses) and each history of readings, the values given to the electricity meter channel are the readings in the units of the protocol: voltage in 0.01 V, current in 0.001 A, active, apparent and reactive power in 0.00001 W, VA and var, energy in 0.00001 kWh, power factor in 0.001, frequency in 0.01 Hz, up to one unit and the rounding of floats. A phase whose module does not answer shows zero and keeps its energy; when no module answers there is no measurement.", "quantifier": "all histories of readings of one to three modules, each answering any numbers within the range of the meter or not at all, and any rounding of float arithmetic within one part in 2^24", "why_tests_cant": "A test compares a few readings, mostly with power factor near one where the reactive power is small; a factor that is ten times too small is seen only when somebody compares with another meter, and a link that breaks in the middle of a reading needs particular timing.", "anchors": ["src/supla/sensor/PzemV3.h:PZEMv3::readValuesFromDevice", "src/supla/sensor/PzemV2.h:PZEMv2::readValuesFromDevice", "src/supla/sensor/three_phase_PzemV3.h:ThreePhasePZEMv3::readValuesFromDevice", "src/supla/sensor/three_phase_PzemV3_ADDR.h:ThreePhasePZEMv3_ADDR::readValuesFromDevice", "src/supla/sensor/electricity_meter.cpp:resetReadParameters"]}
{"id": "C116", "title": "DS18B20 probes and their thermometer channels", "statement": "On a 1-Wire bus with any probes that come and go: no probe is ever assigned to two thermometer channels; a channel without probe gets a free probe that is found; a channel shows the newest temperature read from its own probe, keeps it over at most three failed readings and is unavailable after that; Reset assignement takes the probe from the channel; the bus may have any number of probes. Assignments survive restarts.", "quantifier": "all histories of bus searches, conversions, passes of any channel with any results of reading, resets, delayed saves, power losses and restarts, for any number of channels", "why_tests_cant": "Needs particular probe codes (one of 256), hundreds of consecutive failed readings, probes exchanged between restarts or a full table; tests with two probes on the desk see none of it.", "anchors": ["extras/esp-idf/supla-ds18b20/esp_ds18b20.cpp:OneWireBus::assignAddress", "extras/esp-idf/supla-ds18b20/esp_ds18b20.cpp:OneWireBus::scanBus", "extras/esp-idf/supla-ds18b20/esp_ds18b20.cpp:DS18B20::getValue", "extras/esp-idf/supla-ds18b20/esp_ds18b20.cpp:OneWireBus::removeDs", "extras/esp-idf/supla-ds18b20/ds18b20_parameters.cpp:handleResponse"]}
{"id": "C117", "title": "An input driven by interrupts shows a steady level and alternating voltage", "statement": "An input of the interrupt driven AC/DC adapter shows on while an alternating voltage or a steady high level is present and off when there is neither; it does not go off earlier than its timeout after the last interrupt, and after a change of a steady level it shows the new level once the timeout has passed.", "quantifier": "all timeouts, all sequences of level changes, waits and timer calls, all start times", "why_tests_cant": "the result depends on the interleaving of interrupts, timer calls and clock wrap-around, including a timer call at clock value 0", "anchors": ["extras/esp-idf/supla-interrupt-ac-to-dc-io/interrupt_ac_to_dc_io.cpp:InterruptAcToDcIo"]}
{"id": "C118", "title": "SHT30/SHT40 show the measured temperature and humidity, or not available", "statement": "After each reading the channel shows the temperature and humidity the sensor sent, converted as in the data sheet and limited to 0-100 % for humidity; if the reading failed or its checksum is wrong the values are shown as not available.", "quantifier": "all histories of readings, successful or not, all bytes received, both orders of evaluation of the two values", "why_tests_cant": "all raw values and failure histories; evaluation order is left open by the language", "anchors": ["extras/esp-idf/supla-sht30/esp_sht30.cpp:readSensor", "extras/esp-idf/supla-sht40/esp_sht40.cpp:readSensor", "src/supla/sensor/therm_hygro_meter.cpp:iterateAlways"]}
{"id": "C119", "title": "The answer of the OCR server is given to the meter as it was sent", "statement": "When sending a photo or asking for the status is reported as successful, the text handed to the meter is the whole text the server sent, within the buffer and terminated; otherwise failure is reported.", "quantifier": "all answers, split in pieces in any way, all buffer sizes and status codes", "why_tests_cant": "depends on how the network splits the answer and on its exact length", "anchors": ["extras/esp-idf/supla-ocr-ic/supla_ocr_ic.cpp:sendPhotoToOcrServer", "extras/esp-idf/supla-ocr-ic/supla_ocr_ic.cpp:getStatusFromOcrServer", "extras/esp-idf/supla-ocr-ic/supla_ocr_ic.cpp:_http_event_handler"]}
{"id": "C120", "title": "HX711 scales show the weight after taring and calibration, also after a restart", "statement": "After taring with the empty scales and a calibration with a known positive mass, the weight shown for any load is the one proportional to the reading, cut to one decimal; this also holds after saving and a restart; a sensor that does not deliver samples is shown as not available, and no real weight is.", "quantifier": "all readings, masses, orders of taring, calibration, save, restart and display", "why_tests_cant": "all 24-bit readings and rational masses, and histories of operations", "anchors": ["src/supla/sensor/HX711.h:HX711", "src/supla/sensor/weight.h:WEIGHT_NOT_AVAILABLE"]}
{"id": "C121", "title": "The Linux client connects to a reachable server, keeps idle connections and delivers messages whole", "statement": "If one of the addresses of the server answers within the timeout the client connects to it and leaves no other socket open; a connection over which nothing arrives is kept; the number of bytes reported as written is the number given to the network; what the server receives is a beginning of the messages written.", "quantifier": "all lists of addresses, all sequences of operations and answers of the system, encrypted or not", "why_tests_cant": "depends on the answers of the operating system in every combination", "anchors": ["extras/porting/linux/linux_client.cpp:connectImp", "extras/porting/linux/linux_client.cpp:writeImp", "extras/porting/linux/linux_client.cpp:readImp", "src/supla-common/srpc.c:srpc_iterate_device"]}
{"id": "C122", "title": "State kept in a file survives restarts and power cuts", "statement": "What elements write to the storage is read back and does not touch other places; after a commit and restart it is still there; a power cut during a commit leaves the old or the new state; a commit that failed is repeated; accesses outside the reserved size are refused.", "quantifier": "all offsets, data, sizes, sequences of commits, restarts and interruptions at any byte", "why_tests_cant": "power cuts at every byte of a write and failures of the file system", "anchors": ["extras/porting/esp-idf/spiffs_storage.cpp:SpiffsStorage", "extras/porting/linux/linux_file_storage.cpp:LinuxFileStorage"]}
{"id": "C123", "title": "MQTT client of the Linux port", "statement": "A device on a computer that gets its values from an MQTT broker reconnects after every loss, waiting at most a minute, with a short wait after a connection that worked and longer ones while the broker is away; it reaches the broker through any address that answers and notices if it is not connected; every topic a source names is subscribed; the last message of each topic is the one read; and with several topics in one source line i of the content is the message of topic i.", "quantifier": "all histories of losses and attempts, all address lists, all topics, messages and their orders", "why_tests_cant": "The number of losses, addresses and message orders is unbounded; the wrong wait shows only after several losses and the shifted line only until the first message arrives.", "anchors": ["extras/porting/linux/mqtt_client.cpp:reconnect_client,open_nb_socket", "extras/porting/linux/linux_mqtt_client.cpp:subscribeTopic,publishCallback", "extras/porting/linux/supla/source/mqtt_src.cpp:getContent"]}
{"id": "C124", "title": "Configuration in the storage of ESP-IDF", "statement": "On an ESP-IDF device every configuration value is read back as last stored, after any sequence of sets and erasures and after any restart, also after an update that brings the additional partition; asking for the size of a text takes no memory and a buffer of that size is enough; and the configuration page shows a stored text and keeps it when saved untouched.", "quantifier": "all histories of calls, all keys, values and buffer sizes, all partition tables", "why_tests_cant": "Histories and texts are unbounded, the leak shows only after many questions, and the unit tests use a mock of the store.", "anchors": ["extras/porting/esp-idf/nvs_config.cpp:init,getString,getStringSize,getBlobSize", "src/supla/network/html/custom_text_parameter.cpp:send,setParameterValue", "src/supla/storage/key_value.cpp:getStringSize"]}
{"id": "C125", "title": "Configuration file of the Linux port", "statement": "The configuration file of the Linux port means what its documentation says: ports are taken from their sections with the documented defaults, values outside their range are refused, texts of any length are safe, a name used by a channel means the last object defined with it, every channel gets its own number from 0 to 127, a channel_number that is given is the number of that channel, and adding channels at the end changes no number.", "quantifier": "all files (trees of values), all lists of channels and of named sections", "why_tests_cant": "Files are arbitrary trees and channel lists; numbers depend on all channels before, and renumbering exchanges numbers of channels far apart.", "anchors": ["extras/porting/linux/linux_yaml_config.cpp: getSuplaServerPort, getMqttPort, getUInt8, getMqttHost, addParser, addSource, loadChannels, addCommonParameters", "extras/porting/linux/linux_mqtt_client.cpp: LinuxMqttClient", "src/supla/channels/channel.cpp: setChannelNumber"]}
{"id": "C126", "title": "Thermostat following a master thermostat", "statement": "A thermostat configured with a master thermostat works with the mode and set points of the master whenever it regulates, is off if it does not support the master's mode, and keeps regulating: at the latest five seconds after the last change of the master's settings, whatever they are, temperature control, error handling and the forced-off sensor work again.", "quantifier": "all limits and functions of the thermostat, all states, all histories of the master's settings and all times of the passes", "why_tests_cant": "The master's history and the pass times are unbounded and the failure shows only as something that never happens again.", "anchors": ["src/supla/control/hvac_base.cpp: HvacBase::iterateAlways, applyNewRuntimeSettings, setTargetMode, setTemperatureSetpointHeat"]}
{"id": "C127", "title": "Thermostat schedules are the same on the device and on the server", "statement": "When nothing is under way, the server has the main and (for the heat/cool thermostat) the alternative weekly schedule the device works with; a schedule last changed on the device is not replaced by an older one of the server, across broken connections and restarts.", "quantifier": "every history of changes on both sides, connections, answers, passes and restarts", "why_tests_cant": "one flag covers two messages and two answers; only some interleavings lose a change", "anchors": ["src/supla/control/hvac_base.cpp:HvacBase::handleWeeklySchedule", "src/supla/control/hvac_base.cpp:HvacBase::iterateConnected", "src/supla/control/hvac_base.cpp:HvacBase::handleSetChannelConfigResult", "src/supla/control/hvac_base.cpp:HvacBase::handleChannelConfigFinished"]}
{"id": "C128", "title": "Thermostat weekly schedules after a start", "statement": "After a start each weekly schedule of a thermostat is the stored one if that can be used and the default week otherwise; the default week is consistent for every device and runs the planned program (day from 6 to 21, night otherwise) at every time of the week.", "quantifier": "all channel functions, all temperature limits and modes, all stored schedules, all times of the week", "why_tests_cant": "The default week is 672 slots written through validating setters whose result depends on the limits of the device; tests look at a few slots with the default limits and at storage where both schedules are fine.", "anchors": ["src/supla/control/hvac_base.cpp:initDefaultWeeklySchedule", "src/supla/control/hvac_base.cpp:onLoadConfig", "src/supla/control/hvac_base.cpp:onInit"]}
{"id": "C129", "title": "Thermostat buttons", "statement": "The button that goes round takes a thermostat from off to manual, to the weekly schedule and back to off, however often it is pressed and whatever happens in between; the manual/weekly button alternates; toggle stops a working thermostat and starts one that is off, and twice brings back mode and set points; up and down move the set point by the step within the limits.", "quantifier": "all functions, all states, all sequences of presses and main loop passes, all programs and times", "why_tests_cant": "Whether the n-th press does what the user expects depends on the whole history of modes, timers and schedule programs; tests press once or twice from a fixed state.", "anchors": ["src/supla/control/hvac_base.cpp:handleAction", "src/supla/control/hvac_base.cpp:turnOn", "src/supla/control/hvac_base.cpp:applyNewRuntimeSettings"]}
{"id": "C130", "title": "Thermostat after a power cut", "statement": "After a power cut a thermostat goes on where it was: mode, set points, schedule and timer are those from before, and a timed mode still ends.", "quantifier": "all histories before the cut, all things that happen afterwards, all clock states", "why_tests_cant": "The restart can come after any history and the effects appear only later (at the next program, at the end of the timer); tests restart one chosen state.", "anchors": ["src/supla/control/hvac_base.cpp:onSaveState", "src/supla/control/hvac_base.cpp:onLoadState", "src/supla/control/hvac_base.cpp:onInit"]}
{"id": "C131", "title": "The device is on the network whenever the network is there", "statement": "A network interface of the ESP32 counts as ready exactly when its link is up and it has an address, and tells that address, once the driver's announcements have been handled, whatever was set up, disabled, plugged, lost and renewed before. While it is switched on and not in configuration mode a Wi-Fi interface is connected or trying to connect. When a working connection is lost, the reason is in the log, and repeated reasons do not flood it.", "quantifier": "every interleaving of set-ups, mode changes, switching off, driver announcements handled late, link and address changes", "why_tests_cant": "needs every order of events of two tasks and of the outside world; a test on hardware sees a handful", "anchors": ["extras/porting/esp-idf/esp_idf_wifi.cpp:EspIdfWifi", "extras/esp-idf/supla-lan8720/esp_idf_lan8720.cpp:EspIdfLan8720", "src/supla/network/netif_lan.cpp:LAN", "src/supla/network/esp32eth.h:ESPETH", "src/SuplaDevice.cpp:iterateNetworkSetup"]}
{"id": "C132", "title": "A pump or boiler relay follows exactly the thermostats set to use it", "statement": "At any time, a second after the last change, a relay with the pump or heat/cold source function is following a thermostat exactly if that thermostat's configuration says it uses that relay; choosing a pump makes the thermostat use it; a change of the thermostat's function returns to the relays of the set-up.", "quantifier": "all histories of set-up, configurations from server or page, function changes of the thermostat and of the relays, restarts", "why_tests_cant": "histories of configuration and function changes are unbounded and each test uses a fresh device", "anchors": ["src/supla/control/hvac_base.cpp: HvacBase::iterateAlways, handleChannelConfig, initDefaultConfig, enableInitialConfig, setPumpSwitchChannelNo, setHeatOrColdSourceSwitchChannelNo, registerInAggregator", "src/supla/control/relay.cpp: Relay::updateRelayHvacAggregator"]}
{"id": "C133", "title": "The broker's picture of a channel is its state", "statement": "Whenever the device is connected to the MQTT broker and a channel has nothing left to send, the retained messages of that channel's state topics are its state: the documented word or number for what is known (numbers rounded to the published digits), nothing for what is not known; whatever the broker kept from before, and over all losses of the connection, changes of values and changes of functions.", "quantifier": "all histories of values, function changes, availability changes, connections, losses and passes, all former contents of the broker", "why_tests_cant": "Histories are unbounded; that a value changed while the connection is away, or a function that changes, leaves nothing stale needs an invariant over all interleavings.", "anchors": ["src/supla/protocol/mqtt.cpp publishChannelState", "src/supla/protocol/mqtt.cpp publishExtendedChannelState", "extras/porting/esp-idf/esp_mqtt.cpp iterate", "src/supla/channels/channel.cpp sendUpdate"]}
{"id": "C134", "title": "Home automation is told the truth about every channel", "statement": "The discovery document the device publishes for a channel is well-formed JSON that can be read in one way only; every topic in it is one the device publishes the channel's state under or listens to; every payload it offers does, sent to the given topic, what its name says; words for on, off, open, closed and modes are those the device publishes; availability matches the connection message and the last will; every action of a button is announced under the topic and payload it is sent with, and no other; and the announced value does not expire while the sensor works.", "quantifier": "all channel types and functions, all meter quantities, all button actions, all texts of the device", "why_tests_cant": "Device names and prefixes are arbitrary; the agreement between three independent tables (documents, published topics, subscribed topics and accepted payloads) has to hold for all combinations, and nothing in the device reads the documents.", "anchors": ["src/supla/protocol/mqtt.cpp publishHADiscovery", "src/supla/protocol/mqtt.cpp publishHADiscoveryHVAC", "src/supla/protocol/mqtt.cpp publishHADiscoveryEMParameter", "src/supla/protocol/mqtt.cpp sendActionTrigger", "extras/porting/esp-idf/esp_mqtt.cpp onInit"]}
{"id": "C135", "title": "Date, weekday and time of the device", "statement": "Once the server, the web page or a command has set a date and time, the device shows, n seconds later, the date and time n seconds after it by the Gregorian calendar (leap years included), with the right day of the week and the right quarter of the week for thermostat programmes. Impossible dates and requests without data are refused. A device with a clock chip, restarted without network, either says it does not know the time or shows it to within five seconds and what the chip gained or lost since the last message of the server.", "quantifier": "every date and time, every number of seconds, every state of the clock, every sequence of server messages, power losses of the chip, drifts and restarts", "why_tests_cant": "tests check a few dates; the claim is about all dates across month, year and century ends and about every history of messages, restarts and chip failures", "anchors": ["src/supla/clock/clock.cpp", "src/supla/clock/DS3231RTC.h", "src/supla/clock/DS1307RTC.h", "src/supla/network/html/time_parameters.cpp", "src/SuplaDevice.cpp"]}
{"id": "C136", "title": "Temperatures and humidities as measured", "statement": "A reading of a thermometer or hygrometer is reported with the correction configured for its channel (limited to 50 units) to within a thousandth, the humidity within 0-100 %, and the thermostat sees the same number in hundredths. A sensor that gives no value is reported as not available whatever the correction, after at most three failed readings in a row, and never leads to undefined behaviour. A reading is never older than the refresh interval when the sensor is polled.", "quantifier": "every reading (including not-a-number), every correction, channel number, table of corrections, every history of failed and good readings, every sequence of polling times with wrap-around of the millisecond counter", "why_tests_cant": "tests use a handful of temperatures and no failing sensors; the claim is about all readings, all failure histories and all times", "anchors": ["src/supla/channels/channel.cpp", "src/supla/correction.cpp", "src/supla/sensor/therm_hygro_meter.cpp", "src/supla/sensor/DHT.h", "src/supla/sensor/AHT.h", "src/supla/sensor/BME280.h"]}
{"id": "C137", "title": "The app knows how much time a relay timer has left", "statement": "Whenever the device is registered and the relay had its turn, the server was told the exact remaining time of the timer that runs and the state the relay will have afterwards, or that nothing remains; after every new registration it is told again; the relay switches exactly when the time told is over.", "quantifier": "all relays, durations, histories of commands, actions, configurations, passes, lost and new connections, at all times", "why_tests_cant": "A test watches one timer; it does not interleave restarts, reconnections and the wrap of the millisecond counter.", "anchors": ["src/supla/control/relay.cpp:Relay::iterateConnected", "src/supla/control/relay.cpp:Relay::updateTimerValue", "src/supla/control/relay.cpp:Relay::onRegistered", "src/supla/protocol/supla_srpc.cpp:SuplaSrpc::sendRemainingTimeValue"]}
{"id": "C138", "title": "Relays operated by commands (Linux)", "statement": "A relay of the Linux port runs, for every request, exactly the command asked for, once, also at the start; a timed switching on ends with the off command as soon as the time is over; the state reported is, at most 100 ms late, the one its source says; without a source it behaves in every history as a relay on a pin.", "quantifier": "all settings, histories of requests, actions, configurations and passes, and all that the source may say at every moment", "why_tests_cant": "A test uses a source that answers at once; the claims concern late, missing and wrong answers at every moment.", "anchors": ["extras/porting/linux/supla/control/cmd_relay.cpp", "extras/porting/linux/supla/control/custom_relay.cpp", "src/supla/control/virtual_relay.cpp", "src/supla/control/relay.cpp:Relay::toggle"]}
{"id": "C139", "title": "MQTT on ESP-IDF: two tasks, no deadlock, complete setup", "statement": "On ESP-IDF the device's loop and the MQTT client's task are never in the device's code at the same time and never wait for one another; an event whose handling was begun is handled before the loop goes on; after every connection, however many losses and reconnections fall into the middle of sending, all setup messages go out over the present connection; the device considers itself connected only with a connection; an arriving message is acted on exactly as it was sent.", "quantifier": "every interleaving of the two tasks, every sequence of client events (connection, loss, error, data, publishing from a handler) and disconnections, every number of messages; every topic and text", "why_tests_cant": "schedules of two tasks with three locks cannot be enumerated by tests, and the interesting ones (reconnection while a setup message is being sent) depend on microseconds", "anchors": ["extras/porting/esp-idf/esp_mqtt.cpp:mqttEventHandler", "extras/porting/esp-idf/esp_mqtt.cpp:EspMqtt::iterate", "extras/porting/esp-idf/esp_mqtt.cpp:EspMqtt::publishImp", "extras/porting/esp-idf/esp_mqtt.cpp:EspMqtt::disconnect", "extras/porting/esp-idf/esp_mqtt.cpp:mqttEventDataProcess"]}
{"id": "C140", "title": "What the app shows about a channel", "statement": "Asked about a channel, the device answers to the one who asked and names that channel. The answer tells the battery level exactly if a driver ever gave a valid one, and then the last one given; the supply exactly if a driver said what it is; the strength of the bridge's signal unless it is unknown; the lifetime and time of operation exactly for lights; the address, hardware address, radio signal, uptime, time of connection and cause of the last reset exactly when they exist, and nothing else. Without being asked the device sends the states of the online channels with a known battery at the first turn after 5 s from the registration and then every 20 minutes, never more often, across wraps of the clock. Battery data read from the files of a Linux sensor are taken over when valid, and a file that cannot be read changes nothing.", "quantifier": "every set of elements and channels, every history of battery, supply and signal reports, every interface and device state, every request, every sequence of turns of the loop (gaps below 49 days), every content of a sensor's files", "why_tests_cant": "Which fields are marked depends on the whole history of reports and on combinations of optional data; the schedule concerns hours and clock wraps; unit tests check a few fields of one element.", "anchors": ["src/supla/element.cpp: Element::handleGetChannelState, getElementByChannelNumber", "src/supla/channels/channel.cpp: Channel::setBatteryLevel, setBatteryPowered, getBatteryLevel, setBridgeSignalStrength", "src/supla/protocol/supla_srpc.cpp: SuplaSrpc::sendChannelStateResult, iterate", "src/SuplaDevice.cpp: SuplaDeviceClass::fillStateData", "src/supla/control/light_relay.cpp: LightRelay::handleGetChannelState", "extras/porting/linux/supla/sensor/sensor_parsed.cpp: SensorParsedBase::updateBatteryInfoFlags"]}
{"id": "C141", "title": "The app knows how much time a thermostat's timer has left", "statement": "Whatever commands, button presses, passes, registrations and turns of the loop came before: once the loop has turned while the device is registered and its clock is set, the app shows exactly the time left until the end of the thermostat's countdown (zero without one), at that moment and at every later one until something changes; the thermostat's own display shows the same; after a registration time left and the mode to come back to are told again; a countdown is shown only while it counts, and corrections of the clock reach the app.", "quantifier": "every thermostat, every history of commands, passes, registrations and turns of the loop with a clock that does not go back (before 2038), every later moment", "why_tests_cant": "It concerns the agreement of two clocks and a remembered mark over unbounded histories; unit tests check single calls.", "anchors": ["src/supla/control/hvac_base.cpp: HvacBase::iterateConnected, updateTimerValue, onRegistered, applyNewRuntimeSettings, iterateAlways, getRemainingCountDownTimeSec"]}
{"id": "C142", "title": "A device keeps its identity", "statement": "The GUID and the AuthKey of a device are made once: whatever restarts, power cuts, saved settings and factory resets follow, every later start of the device uses the same pair, so that the server sees one device. A pair is always used as it was made, never the GUID of one with the key of another. A start that is not interrupted succeeds. The key cannot be guessed from the GUID and devices set up at different times differ.", "quantifier": "every history of starts, factory resets and saved settings, each cut off after any write, with any write refused by the medium; every value of the random generator; NVS, file images and Linux", "why_tests_cant": "It concerns every point at which power may fail between two writes and every refused write, over histories of starts", "anchors": ["src/SuplaDevice.cpp: SuplaDeviceClass::loadDeviceConfig, begin, resetToFactorySettings", "src/supla/storage/key_value.cpp: KeyValue::generateGuidAndAuthkey, removeAll", "extras/porting/esp-idf/nvs_config.cpp: NvsConfig::generateGuidAndAuthkey, removeAll", "extras/porting/linux/linux_yaml_config.cpp: generateGuidAndAuthkey, loadGuidAuthFromPath, saveGuidAuth", "src/supla/storage/littlefs_config.cpp: commit, removeAll"]}
{"id": "C143", "title": "A meter that counts pulses is not upset by being read", "statement": "While pulses are counted by the timer, what the main loop shows, reports or saves of the counter is a number the counter had at that time; a reset leaves exactly the pulses counted since; a pulse and an increment by an action that happen together are both counted.", "quantifier": "every value of the counter, every word size and number of words, every arrival of pulses between the accesses to single words", "why_tests_cant": "It concerns every interleaving of an interrupt or another task with the words of a 64-bit number; tests run in one thread", "anchors": ["src/supla/sensor/virtual_impulse_counter.cpp: incCounter, iterateAlways, onSaveState, setCounter, handleAction", "src/supla/sensor/impulse_counter.cpp: ImpulseCounter::onFastTimer", "src/supla/timer.cpp: initTimers", "src/SuplaDevice.cpp: onFastTimer", "src/supla/mutex.cpp"]}
{"id": "C144", "title": "A command to move a roller shutter is carried out", "statement": "A calibrated roller shutter that is told to move to a position, or up or down, is moving in the right direction within 1 s and four timer periods, whatever it was doing; 'stop' stops it at the next timer pass outside the pause; and this, like the interlock of the two motor outputs, does not depend on where in a timer pass the command arrives.", "quantifier": "every history, state, travel time, command and schedule of timer passes, every point at which a command and a timer pass overlap", "why_tests_cant": "Whether a command is lost depends on how long the movement under way has lasted and on single instructions of two threads.", "anchors": ["src/supla/control/roller_shutter.cpp: RollerShutter::onTimer", "src/supla/control/roller_shutter_interface.cpp: setTargetPosition", "src/supla/timer.cpp"]}
{"id": "C145", "title": "The function given to a channel is kept over restarts", "statement": "The function the server names for a channel is at once the channel's function, and if the device runs for five more seconds it is the function after every later start, until another one is named or the configuration is removed; a power cut earlier than that leaves the previous function.", "quantifier": "every kind of channel, every history of configuration messages, saves, restarts and power cuts", "why_tests_cant": "The moment of a power cut and the kinds of channels multiply; the unit tests start each element with a prepared storage.", "anchors": ["src/supla/element_with_channel_actions.cpp: loadFunctionFromConfig, setAndSaveFunction, handleChannelConfig, purgeConfig", "src/supla/channels/channel.cpp: setDefault, isFunctionValid", "src/supla/storage/config.cpp: saveWithDelay, saveIfNeeded"]}
{"id": "C146", "title": "What a relay of the Linux port sends when it is switched", "statement": "On the Linux port, switching a relay writes to its file, passes to its command or publishes to its broker exactly the text set in turn_on_payload or turn_off_payload (or a JSON object whose one member is that value): on and off stay distinguishable, no setting makes the program fail, and after every history the last thing sent is the value of the state shown.", "quantifier": "every text of the two settings, every key, every command line with one place for the value, every quality of service, every history of starts and commands with the output reachable or not", "why_tests_cant": "Tests use ON/OFF or 0/1 with a reachable output; texts that merely begin with a number, quotes inside JSON, the command buffer's limit, mixed types and lost messages need all texts and histories", "anchors": ["extras/porting/linux/supla/control/custom_relay.cpp: turnOn, turnOff", "extras/porting/linux/linux_yaml_config.cpp: addCustomRelay, addStatePayload", "extras/porting/linux/supla/payload/json.cpp", "extras/porting/linux/supla/payload/simple.cpp", "extras/porting/linux/supla/output/cmd.cpp", "extras/porting/linux/supla/output/mqtt.cpp", "extras/porting/linux/linux_mqtt_client.cpp: publish"]}
{"id": "C147", "title": "Saving a configuration page changes only what is on that page", "statement": "A form posted to one of the two pages of the set-up (the ordinary page and the page for beta updates) changes only the settings shown on that page and named in the form; a switch is afterwards exactly as the last complete form says; a command field runs exactly the event of the command typed; a change is noted for the server only if a setting changed.", "quantifier": "every set of page elements with their own names, every form (any fields, in any order, repeated, from a browser or another program), every history of complete and broken-off posts", "why_tests_cant": "A missing field is how a browser says off; whether an element may take it so depends on the page, the other elements and on earlier posts that broke off, which tests of single elements do not combine", "anchors": ["src/supla/network/esp_web_server.cpp: handlePost", "src/supla/network/web_server.cpp: parsePost, setBetaProcessing", "src/supla/network/html/custom_checkbox_parameter.cpp", "src/supla/network/html/ethernet_parameters.cpp", "src/supla/network/html/wifi_parameters.cpp", "src/supla/network/html/select_input_parameter.cpp", "src/supla/network/html/home_screen_content.cpp", "src/supla/network/html/text_cmd_input_parameter.cpp", "src/supla/network/html_generator.cpp: sendBetaForm"]}
{"id": "C148", "title": "Protocol versions: which calls a device may use", "statement": "A device puts on the wire only calls that the protocol has for the version in the frame's header; all its frames have the same version; whatever version was given at the start it can register, all its calls go out, a version that is too low is taken as the least supported one, and with a server that names the versions it knows the device uses one of them.", "quantifier": "every number of a call, every version given to the constructor and to begin, every history of starts, connections, calls and answers of the server", "why_tests_cant": "the table has 120 rows and begin takes 256 values; which calls are silently dropped depends on the version, the call and the table together, and a test with the default version sees none of the refusals of a server", "anchors": ["src/supla-common/srpc.c:srpc_call_min_version_required", "src/supla-common/srpc.c:srpc_call_allowed", "src/supla-common/proto.h", "src/supla-common/proto.c:sproto_set_version", "src/SuplaDevice.cpp:begin", "src/supla/protocol/supla_srpc.cpp:initializeSrpc", "src/supla/protocol/supla_srpc.cpp:onVersionError"]}
{"id": "C149", "title": "States in the EEPROM: read back and after a restart", "statement": "What is written to the EEPROM storage is read back; a write changes no other address; after a restart, wherever the device was cut off, the storage has exactly the content of one earlier moment; once a commit has succeeded everything written before it is kept.", "quantifier": "every size, content, offset and length, every history of writes, commits that succeed or fail and restarts", "why_tests_cant": "the loss depends on where the end of the EEPROM is, on which commit failed and on what came after it; tests use a storage in memory that never fails", "anchors": ["src/supla/storage/eeprom.cpp:init", "src/supla/storage/eeprom.cpp:readStorage", "src/supla/storage/eeprom.cpp:writeStorage", "src/supla/storage/eeprom.cpp:commit"]}
{"id": "C150", "title": "A lamp that shows another pin", "statement": "After the start and after each update the lamp shows the source, or its opposite with inverted logic; updates come from the loop or, if chosen, from the timer; nothing else changes the lamp, and while nothing changes nothing is written.", "quantifier": "every level of the pins before the start, every value a source gives, every history of changes of the source, updates and settings", "why_tests_cant": "the fault at the start needs a pin that floats at the level wanted; a simulated pin has one level in both modes", "anchors": ["src/supla/control/pin_status_led.cpp:onInit", "src/supla/control/pin_status_led.cpp:updatePin", "src/supla/control/pin_status_led.cpp:iterateAlways", "src/supla/control/pin_status_led.cpp:onTimer", "src/supla/io.cpp:digitalWrite"]}
{"id": "C151", "title": "Messages of the log", "statement": "A log message is shown whole or not at all, it is shown if there is memory and its level is chosen, making it never has undefined behaviour, and the time beside a line of the Linux port says when it was printed, so lines read in the order in which they were printed.", "quantifier": "every pattern and text, every limit of memory, every level, every time", "why_tests_cant": "depends on the length of a text against the first guess of the buffer, on which allocation fails and on the microsecond; a test sees one of a million times", "anchors": ["src/supla-common/log.c:supla_log_string", "src/supla-common/log.c:supla_log", "extras/porting/linux/linux_log.c:supla_vlog"]}
{"id": "C152", "title": "An output pin puts on the wire the level last written", "statement": "On an ESP32 chip, after any sequence of pinMode and digitalWrite calls a pin carries the level written last if it was last made an output, and carries none if it was last made an input; calls for one pin never change another; after the start of an element that owns an output the wire carries the level the element set.", "quantifier": "every chip with or without pad hold, every list of calls for every pin, every level, every element's order of calls at start", "why_tests_cant": "the effect depends on a latch in the chip that host tests replace by a mock, and on the order of all earlier calls", "anchors": ["extras/porting/esp-idf/esp_idf_gpio.cpp:pinMode,digitalWrite", "src/supla/control/relay.cpp:onInit", "src/supla/control/roller_shutter.cpp:onInit", "src/supla/control/blinking_led.cpp:onInit", "src/supla/control/bistable_relay.cpp:onInit"]}
{"id": "C153", "title": "The type of a channel is registered as it was set", "statement": "The number given to setType is the number registered with the server, for every type of the protocol; two channels registered with the same non-zero type were set to the same number; the temperature of a channel is read for every type that has one.", "quantifier": "every integer given to setType, every list of earlier settings, every value of the channel", "why_tests_cant": "two tables of twenty-one entries each must agree for every integer, including the ones no element uses yet", "anchors": ["src/supla/channels/channel_types.cpp:channelTypeToProtoType,protoTypeToChannelType", "src/supla/channels/channel.cpp:setType,getChannelType,getLastTemperature"]}
{"id": "C154", "title": "Data guarded by a lock is used by one task at a time, and no task waits for ever", "statement": "Methods of the network client and of the LEDs may be called from several tasks: at any moment at most one task uses the connection or the blinking sequence, a method always leaves its lock free, and as long as a task has something left to do some task can go on.", "quantifier": "any number of tasks, each calling any of the methods in any order with any outcome of the connection, under every schedule, with any number of rounds of the reading loop", "why_tests_cant": "interleavings of tasks and waits for ever appear on a chip once in many hours; host tests run with a lock that does nothing", "anchors": ["src/supla/auto_lock.cpp:AutoLock", "extras/porting/esp-idf/esp_idf_mutex.cpp:lock,unlock", "extras/porting/esp-idf/esp_idf_client.cpp:available,readImp,stop,connectImp,writeImp", "src/supla/control/blinking_led.cpp:setCustomSequence", "src/supla/device/status_led.cpp:iterateAlways"]}
{"id": "C155", "title": "A meter reads all it measures once in every period", "statement": "A meter of temperature, humidity and pressure reads them more than one interval apart and, when its period has passed, in its next round; temperature and pressure are read equally often.", "quantifier": "every interval, every number of rounds, every sequence of times returned by the clock, also past its overflow and with the clock moving within a round", "why_tests_cant": "a missed reading needs the clock to tick between two particular instructions; the test clock stands still within a round", "anchors": ["src/supla/sensor/therm_hygro_press_meter.cpp:iterateAlways", "src/supla/sensor/therm_hygro_meter.cpp:iterateAlways", "src/supla/sensor/thermometer.cpp:iterateAlways", "src/supla/sensor/weight.cpp:iterateAlways"]}
{"id": "C156", "title": "The watchdog restarts a device that hangs, and only then", "statement": "A device whose loop stops is restarted after 60 s, after 5 minutes during a download of software or a test; a device whose loop comes round more often than once in 60 s is never restarted by the watchdog; the timeout always is the one for what the device is doing.", "quantifier": "every sequence of status changes, mode changes, rounds of the loop and passing times, with both ways the chip may treat a new timeout", "why_tests_cant": "a hang of minutes at each point of every history of states cannot be tried; the watchdog exists only on the chip", "anchors": ["extras/porting/esp-idf/esp_idf_watchdog.cpp:handleAction,reconfigureTimeoutMs,iterateAlways", "src/SuplaDevice.cpp:status"]}
{"id": "C157", "title": "The CRC-8 detects small damage in a block of any length", "statement": "A block with its CRC-8 appended passes the check against zero and with any other byte appended does not; any change within one byte, any burst of at most eight bits, and any odd number of flipped bits changes the CRC; blocks of different length differ in their CRC.", "quantifier": "every block of every length, every position, every pattern of damage", "why_tests_cant": "a test covers a few blocks; the damage may be anywhere in a block of any length", "anchors": ["src/supla/crc8.cpp: crc8"]}
{"id": "C158", "title": "Actions configured for a channel of the Linux port are the ones announced and sent", "statement": "A channel with conditions for actions is accepted if it names the channel for the actions and every condition has the right number of values; the last condition for an event counts; exactly the actions of some event are announced to the server, and what is sent are exactly the triggered actions the server has activated, in the order they were triggered; an accepted configuration starts without undefined behaviour.", "quantifier": "every configuration, every set of known names, every sequence of triggered actions, every set of actions activated by the server", "why_tests_cant": "the configuration is a list of any length with overlapping events; a test covers a few combinations", "anchors": ["extras/porting/linux/linux_yaml_config.cpp: addActionTriggerActions", "extras/porting/linux/supla/sensor/sensor_parsed.cpp: registerActions", "extras/porting/linux/supla/control/action_trigger_parsed.cpp: sendActionTrigger, activateAction"]}
{"id": "C159", "title": "The commands of a thermostat of the Linux port follow what it reports", "statement": "The last command run for an output of the thermostat is the one for the state it reports: for on while it heats or cools, for off otherwise; running a command is defined whether or not a process can be made for it.", "quantifier": "every sequence of settings with any values, times and minimum times, every set of configured commands, heating, cooling and both", "why_tests_cant": "the mismatch depends on the function of the thermostat and on the value it gives its output; tests with a simulated output see the value, not the command", "anchors": ["extras/porting/linux/supla/control/hvac_parsed.cpp: CmdOutput::setOutputValue, HvacParsed::HvacParsed", "src/supla/control/hvac_base.cpp: setOutput, updateChannelState"]}
{"id": "C160", "title": "The file of the last states keeps what was logged", "statement": "The file holds the line of the start and every line logged since, in order, also after the program ended; a line once written stays in the file.", "quantifier": "every history of starts, kills at any point and logged lines, with the file and the directory available or not", "why_tests_cant": "the file depends on the whole history of runs and on where a run was killed", "anchors": ["extras/porting/linux/linux_file_state_logger.cpp: FileStateLogger::FileStateLogger, log, addToFile"]}
{"id": "C161", "title": "Software updates are checked at the address that was set", "statement": "Whatever addresses are set, updates are checked at the last one that was accepted, character by character, or at the default if there is none; the address is always read within its buffer.", "quantifier": "every sequence of addresses of every length, refused ones among them", "why_tests_cant": "the border of the buffer is met by one length of the address only", "anchors": ["src/supla/device/sw_update.cpp: SwUpdate::setUrl", "src/supla/storage/config.cpp: setSwUpdateServer, getSwUpdateServer", "src/SuplaDevice.cpp: iterate"]}
