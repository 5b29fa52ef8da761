# Formal model of b00bl1k/uwan: design

The code under study is the C LoRaWAN stack in `/repo` (read only, never built or run).
The model and the proofs are Lean 4 modules under `lean/Verif/`; `properties.jsonl` has the
English properties, `MANIFEST.json` maps each of them to theorems.

## 1. Shape of the model

* `lean/Verif/Model/*` models the C code function by function. Every definition cites the C lines.
* State is one record per C module's static variables. A call returns its result, the new
  state and the list of *observable effects* (`Ev`: radio, HAL, timer, crypto and application
  calls with their arguments, in order).
* **Undefined behaviour is a distinct outcome.** Memory-unsafe or non-terminating C
  behaviour (out-of-bounds index, call through a null pointer, endless loop) makes the model
  return `Except.error ub`. A signed left shift that overflows (`b << 24` with `b >= 128`) is
  undefined in C99 but every supported compiler computes the expected bits, so it is recorded as the
  effect `Ev.ubShift` and the model goes on with those bits.
* Inputs that the code does not control are parameters: `rand()` results, the packet the radio
  hands out, values returned by application callbacks, the block cipher and the CMAC.
* A *history* is a list of operations (`Op`: every public API call, radio event, timer callback)
  run from any state; theorems about histories are by induction over the list.
* `lean/Verif/Spec/*` holds the specifications: LoRaWAN frame formats, cipher, key derivation, counters,
  abstract channel map, datasheet decoders. They do not use model functions.
* `lean/Verif/Props/*` holds the property theorems, with a concrete example beside each one.
  `lean/Verif/Lemmas/*` holds helper lemmas.
* `lean/Verif/Tests/*` transcribes the repository's own unit tests as evaluated examples. They are tests
  of the model's fidelity, not proofs of any property.

When the code does not have a property, the theorem file proves the **negation** with a concrete
witness and the strongest true part as `..._partial`. Nothing is changed to make the code look right.

## 2. Trusted base

* Lean 4.33.0's kernel; axioms used by theorems: at most `propext`, `Classical.choice`,
  `Quot.sound` (listed per theorem in section 6). No added axioms, no `sorry`, no `native_decide`, no `bv_decide`.
* The reading of the C code. `Model/*` is written by hand. Two checks on it: the unit tests in `Tests/`, and, for the functions listed in
  section 3.1, a proof that the text of the function, run by a C semantics, does what the model says. For those functions the trusted part is the
  printer `tools/c2lean.py` and the semantics `Code/Sem` instead of the transcription.
* C platform: 8-bit bytes, two's complement, `int` of 32 bits, `enum` at least 16 bits wide,
  conversions to narrower signed types wrap.
* Callbacks (radio, HAL, crypto, application) terminate, do not write the stack's
  static variables and do not re-enter the stack. Three exceptions: `downlink_callback` may (C36 shows it is
  the last action, so a call from inside it equals a call after it), in C106 - C109 the callbacks of
  `struct uwan_mac_callbacks` may (`Model/Reenter`), and in C123 those of the clock package may (`Model/SyncReenter`).
* Crypto callbacks compute a deterministic function: `aes_encrypt` of a context depends on key and block; the CMAC
  depends on the key and on the concatenation of the updates. Nothing else is assumed about them, apart from
  C39, which assumes the network can invert the block operation (as AES can).
* Interrupt atomicity: API calls, timer callbacks and radio events do not preempt each other.

## 3. What is modelled

All of the library, about 2800 lines of C.

| C source | model | simplifications |
|---|---|---|
| `include/uwan/stack.h` | `Model/Types`, `Model/Hal` | enumerated parameters are enumerated types, except where an out-of-range value can come from the air or from a narrowing conversion |
| `src/utils.c`, `src/region/*.c` | `Model/Basic`, `Model/Region` | none |
| `src/channels.c` | `Model/Channels` | the probe loop carries its count (C17 proves it never runs out) |
| `src/adr.c`, `src/mac.c` | `Model/Mac` | application callbacks return any value; they do not call back into the stack (`Model/Reenter` lets them) |
| `src/stack.c` | `Model/Stack`, `Model/History` | block cipher and CMAC are parameters; packet buffers are byte lists with their C capacity checked |
| `src/ext/clock_sync.c` | `Model/ClockSync` | the application's clock functions are parameters |
| `src/device/sx127x.c`, `src/device/sx126x.c` | `Model/Hal`, `Model/Sx127x`, `Model/Sx126x`, `Model/Driver` | see below |

Not modelled: build files, tests, the C library, the concrete crypto, the interrupt controller, the chips.

**Drivers.** A driver function is a tree of HAL calls (`Prog`); the chip is not modelled, every transfer may return any byte, and
`is_busy` may stay true for any number of polls. `Exec p tr a` is a finished execution; `Calls step z log s` is a finished
sequence of driver calls from static storage. The HAL members the drivers do not test for null are assumed present;
`io_init`, `io_deinit` and `ant_sw` may be absent. `sx126x_rand` reads a `uint32_t` through a byte pointer: little-endian is assumed. A signed
shift into bit 31 in `sx127x_rand` is recorded in the result instead of stopping the program (as `Ev.ubShift` above).
`tx` and `read_packet` take `uint8_t` lengths, so buffers are at most 255 bytes (`DOp.Valid`). The event handler is called last in
`irq_handler`, so its effects are those of later calls. What the registers and commands mean is in `Spec/Radio`, after the Semtech datasheets.

**Stack on a driver.** `Model/Device` runs both together: `Device E step z log s d` is a history of application calls to the driver
(`init` and `set_public_network`, which the stack never makes), application calls to the stack, timers and interrupts. Each effect of the stack
that names a member of `struct radio_dev` is a driver call with the same arguments; an interrupt is a call of `irq_handler`, whose event mask goes to the
stack's handler; the packet the stack sees is the one `read_packet` returned. The application calls no other driver function. As in section 2, nothing preempts
anything.

### 3.1 The program text

`tools/c2lean.py` reads the C files and prints every function of `src/*.c`, `src/region/*.c` and `src/ext/*.c` as a syntax tree (`Code/Utils` …
`Code/ClockSync`, and `Code/Sx127x` for the driver), with the variables and their initialisers. It expands macros, resolves names and enumerators, turns `switch` into `if`, `*p` into `p[0]`;
it knows nothing of what a statement does. `Code/Sem` gives trees their meaning: integer promotions, usual arithmetic conversions, wrap-around
of unsigned types, overflow of `int`, shifts, short-circuit operators, assignment with conversion, pointers into named objects, local variables in frames, loops, calls;
reading outside an object, a null pointer, an uninitialised variable, division by zero and signed overflow stop with a fault. Assumed there: `int`,
`size_t` and pointers of 32 bits, `enum` is `unsigned int`, no object is accessed with another type (members of structures are objects of their own),
the value of `memcmp` other than 0 is 1, evaluation is from left to right. `Code/Host` is the environment: radio, timers, cipher,
application. `Code/Enc` writes the model's state as the memory of the program; `enc_boot` shows that at power-on both agree.

Theorems `run_<function>` (in `Lemmas/Code*`) say: running the text of the function on the memory of a state gives the result, the memory and the effects
the model's function gives. They cover every function of `src/utils.c`, `src/channels.c`, `src/region/*.c`, `src/adr.c`, `src/mac.c` and `src/stack.c`. `step_text` puts
them together for one call from outside, `run_text` for any number of calls one after the other (`Code/Run`): from power-on the text does what a history of the model does, call by call, or
follows the null pointer where the model does (C61). So whatever is proved of all histories (`Hist`) holds of the text: C143 says it in general, C142 and C144 - C146
spell out some of it. What this leaves to trust for these files: the printer, `Code/Sem`, `Code/Host` (how a call to the outside is read as an effect `Ev`), and `Turn.Valid` (arguments of
the types and ranges of the API, `rand` returns a number below 2^31, the pointers the application passes point to memory of the right size that nothing else uses). The application's packet callback is
given the contents of the packet at the time of the call. The table of MAC handlers is one object of the application; it changes only when handed over again.

For `src/ext/clock_sync.c` the theorems are `crun_<function>` (`Lemmas/CodeClock`) and, for the parser, `handle_text` (`Lemmas/CodeAnswer` - `Lemmas/CodeHandle`). Its call of `uwan_send_frame` runs the
text of that function on the memory of the stack (`Code/RunClock`, `clockHost`). `run_sys` puts calls to the stack and to the package together: the text does what a history `SHist` does, up to a call the model gives no meaning to.
In such a call the text stops with a fault, with one difference: `1 << 31` (identifier 31) is an error of the model, while `Code/Sem` records the overflow (`ubShift`) and goes on. C147 says this in general,
C148 - C150 spell out some of it. Trusted besides: the callbacks of the package are one object of the application that changes only when handed over again, a packet lies in memory of its own together with what follows it, `get_unixtime` answers the same within one call.

For `src/device/sx127x.c` (`Code/Sx127x`) the theorems `run_<function>` in `Lemmas/CodeWire`, `Lemmas/CodeSx127x` and `Lemmas/CodeSx127xB` compare the text with `Model/Sx127x` followed against a chip that answers every call
of the HAL as it likes, knowing what happened since the driver was called (`Code/RunDriver`). `run_calls` and `run_started` put the calls together: C151 in general, C152 and C153 spell out some of it. `sx127x_set_freq` is
written with `uint64_t`, which `Code/Sem` does not have: it is not printed, and `Model/Sx127x.setFreq` stands for it (`C151_freq64`: it computes what 64-bit integers compute). Trusted besides: the HAL table is one object that changes only when
handed to `init`, its `is_busy` is null (the driver never reads it), the parameters, buffers and packet a caller passes live in memory of their own during the call.
The printer writes `-x` as `0 - x` and lets a pointer assigned from `void *` be what it is.

Not covered: `src/device/sx126x.c` (not printed).

Before the proofs, the printed text and the model were run side by side on 79981 random operations without a difference; this test is not part of the build.

## 4. Plan per property

| property | modelled | how proved |
|---|---|---|
| C01 C02 | `uwan_send_frame`, `encrypt_payload`, `calc_mic` | network-side parser/decryptor in Spec applied to the transmitted bytes |
| C03 C04 C05 | same, plus table lookups | reachable-state invariant, then case analysis |
| C06 C07 | histories | induction over operations |
| C08 C09 | histories | invariant linking the stack's phase to an automaton on the effect trace |
| C10 | closed system stack + abstract radio + timers | progress measure; expected to fail if RX2's timer fires during RX1: negation + partial |
| C11 C12 C13 C14 | radio configuration folded from the trace | invariant over histories; C12 data rate false (ADR back-off and changes during the exchange): negation + partial |
| C15 C16 C17 C18 | `channels.c` | invariant; refinement to a map; loop lemma |
| C19 | `uwan_init` | outright; false on re-initialisation (old frequencies stay): negation + partial |
| C20 C21 | `adr.c` | ghost count over histories |
| C22 | ack flag | false (flag set before authentication): negation + partial |
| C23 | NbTrans | false (never used): negation + partial |
| C24 | power | false for very low maxima (narrowing to `int8_t`): negation + partial |
| C25 C26 | send without session / port range | false (not checked): negation + partial |
| C27 C28 C29 C32 | `handle_data_msg` | decision table against Spec; round trip |
| C30 C31 C33 C34 C35 | `handle_data_msg` | false in the code: negation + partial |
| C36 C37 | events | outright |
| C38 - C43 | join, CFList | outright and round trip |
| C44 | `uwan_init` during join | false: negation + partial |
| C45 - C48, C51 - C56, C59 | `mac.c`, `adr.c`, setters | outright; parser against a Spec parser by induction |
| C49 C50 C57 C58 | same | false in the code: negation + partial |
| C60 C61 C62 | everything | invariant over histories; negations for out-of-range enumerators, missing handlers, shifts |
| C63 - C65, C68, C69 | `clock_sync.c` | outright, induction over the packet |
| C66 C67 | same | false: negation + partial |
| C70 - C80, C84, C86, C89, C90 | drivers as programs over an arbitrary SPI peer | weakest preconditions over programs; arithmetic; finite tables |
| C81 C82 C92 C93 | sequences of driver calls | induction over the calls, datasheet decoders on the whole bus trace |
| C83, C85, C87, C88, C91, C94 | same | false in part: negation + partial |
| C95 | data rate | outright |
| C96 - C102 | stack on a driver | the stack's invariant over histories, composed with C70 - C93 on the resulting driver calls |
| C103 - C105 | a device and its network server | the server is a small program in `Spec/Network`; induction over lossy executions of both ends |
| C106 - C109 | calls from inside MAC callbacks | `Model/Reenter` has the functions above `mac_handle_commands` a second time, reading the frame from the shared buffer; equal to `Model/Stack` without such calls (`reenter_none`) |
| C110 | crypto calls | `Spec/Keys` gives the computations a frame requires; the effects of each operation are folded into (key, input) pairs and compared |
| C111 C112 | join-accept, `handle_downlink` | false: what is kept is proved for all histories, negation + partial |
| C113 | all stack operations | bisimulation: states that agree on the observers differ in frame buffer, old packet parameters and channel high-water mark; each operation is shown not to depend on them (`Lemmas/Like`, `Lemmas/Mark`, `Lemmas/Same`); induction over the continuation. `C113_lead_partial` allows empty packets if `Spec.lead` agrees |
| C114 | clock synchronisation package on the stack (`Sys`), time server and network server as specification | the calls of the stack inside a history with the package form a stack history (`stackLog_hist`); C63, C103's `recv_uplink`, C28, C64 |
| C115 | `uwanInit`, `setRx2` of Model/Stack, observers | the configured RX2 channel is followed from `uwan_init` through any operations that do not touch it (`rx2_seg`), then as C13 |
| C116, C117 | Model/Mac, Model/Stack | C46 and C58: what is queued and carried between two uplinks |
| C118 | Model/Channels | C16 |
| C119 | Model/Mac | execution of one command (`exec_newChannel`) |
| C120 | Model/Mac | induction over the block (`adr_block`) |
| C121 | all stack operations | two runs in lockstep: states that differ only in paired keys take the same steps (`Lemmas/Secrecy`), induction over the history |
| C122 | `step`, with times beside the operations | invariant: times due in the windows, from C11 and the symbol time of the settings; then C10 without its hypothesis about the second timer |
| C123 | `uwan_clock_sync_handle_time_answ` with the packet read from the frame buffer byte by byte as it then is, and calls of the library inside its four callbacks (`Model/SyncReenter`) | the packet lies inside the buffer from `handleDownlink`; induction over the loop with the invariant of the stack and the mask of commands; a simulation by `csLoop` while no frame is built |
| C124-C127 | all functions of both drivers | the start-up lists of `init`; an inductive description of what every other call puts on the bus, preserved over sequences of calls; a small pacing calculus over the driver programs |
| C128 | Model/Mac, Model/Stack; the network's side in Spec/Manager (reading FOpts, matching answers and commands, effect of a command as LoRaWAN defines it) | induction over the commands with the observer's configuration: each answer tells the effect of its command; C46 for what is queued and carried |
| C129 | same as C20, C21 | the data rate from C21; power and channels: induction over the silent segment, then C16 and C24 |
| C130 | calls to the radio (`Spec/Energy`), times from `Spec/Timing` | potential: receptions the exchange under way can still start; for the time, each reception is ended by the interrupt that C122 bounds |
| C131 | two histories from power-on, `Resumed`, `told`, `Continues` (`Spec/Restart`) | uplink counter of the view over both lives; the downlink counter is monotone in a session; case analysis of the counter reconstruction shows that only one value works |
| C132 | `Hist`, `sealOp`, `sealEv`, `sealed` (`Spec/Payload`) | states that differ only in the frame buffer step alike; the first byte of the buffer, which an empty packet reads, is a function of what is seen; the counter blocks do not depend on the message |
| C133 | `Hist`, `config`, `nextOn`, `draw`, `keepsOn` (`Spec/Hopping`) | the search loop finds the first enabled channel in cyclic order; the high-water mark is one above the highest enabled channel unless all were disabled, shown for ascending passes over the channels (LinkADRReq, CFList) and by induction over commands and history |
| C134 | two `Hist`s, `sealRx`, `sealRxEv`, `sealRxIn` (`Spec/Delivery`) | two devices in lockstep: the parser takes the same branch for packets with the same header and verdict, and the states differ at most in the frame buffer, whose contents no later step depends on |
| C135 | `Hist`, `Server` (`Spec/Network`), `Unforged`, `uplinks` (`Spec/Attacker`) | the cipher input of the integrity code is injective in direction, counter and bytes, so an accepted frame is one of the device's frames with that counter; induction over the frames heard |
| C136 | `Hist`, `Unforged`, `delivered` | the same for downlinks; induction over the operations: the counter only grows, whatever is heard, and a delivered downlink has the counter the stack then stands at |
| C137 | `Calls`, `Optimised` (`Spec/Wideband`), `Device` | what `rx` writes to the two registers, with C93 for the bandwidth held and C98 for the receive windows |
| C138 | `Calls` of both drivers, stories of a flag (`Spec/Flags`): any interleaving of the chip raising it with the driver's accesses | conservation law: raised + pending before = told + pending after, by induction over the calls |
| C139 | Model/Stack, packets from the air that are not forged (`Spec/Otaa`) | an accepted packet deciphers to a message with its right code, so it is one the network built; C39; the key block is injective in the DevNonce |
| C140 | Model/Sx127x, Model/Sx126x; sync words of the datasheets (`Spec/SyncWord`) | C92, C93 |
| C141 | Model/Stack (`evtHandler`, `timerCallback`); histories | C03, C11 |
| C142 - C146 | the printed C text of `src/*.c` and `src/region/*.c` under `Code/Sem` | symbolic execution of every function (`Lemmas/Code*`), induction over the calls; C61, C06, C01, C15, C09, C62, C27 |
| C147 - C150 | the printed C text of `src/*.c`, `src/region/*.c` and `src/ext/clock_sync.c` under `Code/Sem` | symbolic execution (`Lemmas/CodeClock` - `Lemmas/CodeHandle`), induction over the rounds of the parser and over the calls; C61, C63 - C66, C69, C01 |
| C151 - C153 | the printed C text of `src/device/sx127x.c` under `Code/Sem`, except `sx127x_set_freq` | symbolic execution (`Lemmas/CodeSx127x*`) against an arbitrary chip, induction over the rounds of the loops and over the calls; C82, C85, C89, C93, C138 |

## 5. Where code and property disagree

Each line is a theorem about the unchanged code; the property keeps its full English statement and is marked partial (C84 is the exception, it holds).

| property | what the code does | theorem |
|---|---|---|
| C10 | an RX2 timer that fires while RX1 is still receiving is lost; if RX1 then times out the exchange never ends, and nothing but `uwan_init` helps | `C10_deadlock`, `C10_late`, `C10_stuck` |
| C12 | with an offset, RX1 starts from the data rate configured when the transmission ends, not the one transmitted with | `C12_backoff`, `C12_join` |
| C19 | `uwan_init` keeps frequencies of channels from before | `C19_stale` |
| C22, C30, C33, C34 | ACK flag, FOpts and frame counter are taken over before address, counter and MIC are checked | `C22_forged_ack`, `C30_forged`, `C33_forged`, `C34_foreign_ack` |
| C23 | NbTrans is stored and never used | `C23_not_repeated` |
| C24 | the power is narrowed to `int8_t`, so -120 dBm and index 7 ask for +122 dBm | `C24_wraps` |
| C25 | frames are sent without a session | `C25_sends_unjoined` |
| C26 | application payloads on port 0 go out under the application key | `C26_port_zero` |
| C31 | a counter of 0 is always accepted | `C31_zero_replay` |
| C35 | MAC commands in a port 0 payload are not executed | `C35_port0` |
| C44 | `uwan_init` keeps a pending join | `C44_stale_join` |
| C49 | only bit 2 of ChMaskCntl is looked at | `C49_cntl6`, `C49_cntl1` |
| C50 | LinkADRReq may disable every channel | `C50_mute` |
| C57 | the DeviceTimeReq stamp can come from another transmission, or be an old one after a refused request | `C57_on_air`, `C57_join`, `C57_refused` |
| C58 | a command whose answer does not fit is executed unanswered | `C58_dropped` |
| C60 | a data rate of 256 and more is cut to 8 bits before the check | `C60_dr256` |
| C61 | missing callbacks are called; `b << 24` overflows | `C61_null_callback`, `C61_shift` |
| C66 | clock sync reads behind a short packet, shifts too far for identifiers from 31 on, and shifts into the sign bit | `C66_overread`, `C66_wild`, `C66_shift` |
| C67 | the factor is squared instead of doubled: from period 3 on the seconds are wrong, from 6 on they overflow | `C67_wrong`, `C67_overflow` |
| C83 | SX126x `init` waits for BUSY forever | `Sx126x.C83_stuck` |
| C84 (holds) | outside its range: a timeout of 262144 ms becomes 0 | `Sx126x.C84_overflow` |
| C85 | the SX127x RSSI offset follows the transmit power instead of the frequency band | `Sx127x.C85_wrong_port` |
| C87 | SX126x: a failed `init` without HAL leaves null pointers behind that later calls use | `Sx126x.C87_null_init` |
| C88 | SX127x `rand` shifts into the sign bit | `Sx127x.C88_overflow` |
| C91 | SX127x: the preamble length is never programmed | `Sx127x.C91_ignored` |
| C94 | low-data-rate optimisation is decided by the spreading factor alone | `C94_sf11_bw250` |
| C97 | a power the driver refuses is not noticed: the frame goes out with an earlier one | `Sx127x.C97_wrong`, `Sx126x.C97_wrong` |
| C106 | frames sent inside a MAC callback are built in the buffer of the packet being processed; a join started there is forgotten | `C106_send_inside`, `C106_join_inside` |
| C111 | a join keeps the power, repetitions, RX2 frequency, channels and pending MAC answers of the session before | `C111_leftovers` |
| C112 | the ACK bit of downlinks is ignored | `C112_lost` |
| C113 | after all channels were disabled once, `uw_channels_max_count` stays too high, and the same random number picks another channel (and channels are picked unevenly) | `C113_high_water` |
| C113 | an empty packet is reported with a message type read from the old contents of the frame buffer | `C113_empty` |
| C115 | with EU868 the second window is opened on 868.1 MHz and not on 869.525 MHz until somebody sets it (src/region/eu868.c `eu868_init`) | `C115_eu868` |
| C116 | RXParamSetupAns and RXTimingSetupAns are sent once, not until a downlink arrives | `C116_not_repeated` |
| C117 | DutyCycleReq is acknowledged and ignored (a TODO in src/mac.c) | `C117_no_effect`, `C117_ignored` |
| C118 | join-requests go out on any enabled channel, also on those added by the network | `C118_other_channel` |
| C119 | a NewChannelReq with frequency 0 is refused, one for a default channel is carried out | `C119_not_removed`, `C119_default_changed` |
| C120 | LinkADRReq in a row are carried out one by one: a refused one does not stop the others | `C120_not_atomic` |
| C123 | A ForceDeviceResyncReq that is not the last command of its packet: an application that answers it by sending a time request, from inside the callback, has the rest of the packet overwritten by that request. What follows is read from the new frame: undefined shifts, or lost and invented commands. | `C123_overwritten`, `C123_lost` |
| C126 | SX126x `set_frequency` calibrates the image rejection for 860-876 MHz whatever the frequency | `Sx126x.C126_other_band` |
| C127 | SX126x `rand` listens with interrupts enabled: a packet on the air meanwhile raises an event nobody asked for | `Sx126x.C127_armed` |
| C128 | With the answer queue full, an RXTimingSetupReq takes effect and the next uplink does not answer it: the network's record and the device disagree about the receive delay. | `C128_astray` |
| C129 | While the network is silent only the data rate is lowered: power and channel mask stay what the last LinkADRReq made them, for any number of uplinks. | `C129_kept`, `C129_faint` |
| C131 | The application is not told the downlink counter (it is neither in `struct uwan_dl_packet` nor returned by any call), so it cannot put it back after a restart: `C131_untold` gives two devices whose applications know the same and for which no common value works. With 0, as in a fresh session, the first old frame replayed is accepted. |
| C133 | the channel after a disabled one gets its share as well: EU868 with 868.3 MHz disabled uses 868.5 MHz twice as often as 868.1 MHz | `C133_uneven` |
| C133 | after all channels were disabled once the mark stays too high, and channel 0 gets the share of the missing ones | `C133_stale` |
| C136 | somebody who repeats the first downlink of a session (counter 0) has it delivered again each time, until a later one arrives (cause as C31) | `C136_zero` |
| C137 | the SX127x receiver is always set up for 500 kHz in the high band, also for the 125 kHz of every LoRaWAN receive window here | `Sx127x.C137_narrow`, `Sx127x.C137_windows` |
| C139 | a join-accept for an earlier join-request, repeated by anybody, is accepted: the device says it has joined, with keys the network does not have; if the 16 bit DevNonce is drawn again, with old keys and counter 0 | `C139_replay`, `C139_reuse` |
| C140 | `set_public_network(false)` gives a SX127x the sync word 0x14, which is the upper register byte of the SX126x's encoding 0x1424 of 0x12: it hears no other device of a private network | `Sx127x.C140_private` |
| C141 | any packet received in the first window, be it damaged, for another device or with a wrong MIC, stops the timer of the second: an answer sent in RX2 is missed | `C141_cut`, `C141_foreign` |

Seen on the way and not claimed by any property: SX126x image calibration is always for 863-870 MHz; SX127x `rx` writes the 500 kHz
optimisation registers whatever the bandwidth and sets the TX instead of the RX base address.

## 6. Axioms of each theorem

Written by `tools/axioms.py` from `#print axioms`. Names are in the namespace `Uwan`.

**propext, Classical.choice, Quot.sound** (269): `C.C142_handlers`, `C.C142_text_safe`, `C.C143_text_history`, `C.C144_text_uplink`, `C.C145_text_calls`, `C.C146_text_downlink`, `C.C147_text_history`, `C.C147_text_sound`, `C.C148_text_safe`, `C.C148_text_shift`, `C.C149_text_accepted`, `C.C149_text_correction`, `C.C150_text_answers`, `C.C150_text_request`, `C.Drv.C151_freq64`, `C.Drv.C151_text_calls`, `C.Drv.C151_text_null`, `C.Drv.C151_text_safe`, `C.Drv.C152_text_held`, `C.Drv.C152_text_lora`, `C.Drv.C153_text_board`, `C.Drv.C153_text_once`, `C.Drv.C153_text_quality`, `C01_uplink_frame`, `C02_payload_decrypts`, `C03_frame_length`, `C04_length_error`, `C04_reported_size`, `C05_refused_no_effect`, `C06_uplink_counter`, `C07_no_block_reuse`, `C08_one_exchange`, `C09_alternate`, `C103_uplinks`, `C104_downlinks`, `C105_join`, `C106_join_inside`, `C106_report_partial`, `C106_send_inside`, `C107_defined`, `C107_window`, `C108_get_time`, `C109_counters`, `C109_distinct`, `C10_completes_partial`, `C10_late`, `C10_stuck`, `C110_accept`, `C110_data`, `C110_join`, `C110_nothing`, `C110_send`, `C111_join_partial`, `C112_error_partial`, `C112_lost`, `C113_empty`, `C113_high_water`, `C113_lead_partial`, `C113_same_partial`, `C114_time`, `C115_eu868`, `C115_ru864_partial`, `C116_next_partial`, `C116_not_repeated`, `C117_answered_partial`, `C117_no_effect`, `C118_default_partial`, `C119_not_removed`, `C119_others_partial`, `C11_timers`, `C120_block_partial`, `C122_completes`, `C122_deadline`, `C123_kept_partial`, `C123_last`, `C123_memory`, `C123_safe`, `C128_known_partial`, `C128_lost`, `C129_kept`, `C129_slows_partial`, `C12_datarate_partial`, `C12_frequency`, `C130_listening`, `C130_windows`, `C131_downlink_partial`, `C131_only`, `C131_untold`, `C131_uplink`, `C132_free`, `C132_gone`, `C132_hidden`, `C133_draw`, `C133_even_partial`, `C133_stale`, `C133_uneven`, `C134_gone`, `C134_passed`, `C135_uplinks`, `C136_genuine_partial`, `C136_order_partial`, `C136_zero`, `C139_genuine_partial`, `C139_replay`, `C13_only_windows`, `C13_rx2`, `C141_cut`, `C141_opened_partial`, `C14_directed`, `C15_band`, `C16_enabled`, `C16_no_channel`, `C17_reachable`, `C17_terminates`, `C18_enable`, `C18_last_disabled`, `C18_last_set`, `C18_legal`, `C18_set`, `C18_untouched`, `C19_init_partial`, `C20_ack_request`, `C20_adr_bits`, `C21_backoff`, `C21_reaches_dr0`, `C22_ack_bit_partial`, `C22_forged_ack`, `C23_sent_once_partial`, `C24_power_partial`, `C25_needs_init_partial`, `C26_app_key_partial`, `C27_verdict`, `C28_genuine`, `C29_safe`, `C30_partial`, `C31_increasing_partial`, `C31_no_replay_partial`, `C32_counter`, `C33_partial`, `C34_partial`, `C35_fopts_partial`, `C36_callback`, `C37_margin`, `C37_signal`, `C38_join_request`, `C38_keys`, `C39_session`, `C39_verdict`, `C40_failed_join`, `C41_is_joined`, `C42_cflist`, `C43_defaults_kept`, `C44_partial`, `C45_answers`, `C45_bounded`, `C45_init`, `C45_kept`, `C45_request`, `C46_carried`, `C46_kept`, `C46_once`, `C47_prefix`, `C48_link_adr`, `C49_mask_partial`, `C49_refused_partial`, `C50_audible_partial`, `C50_mute`, `C51_rx_param`, `C52_new_channel`, `C53_delay`, `C53_rx_timing`, `C54_dev_status`, `C55_duty_cycle`, `C55_link_check`, `C55_skipped`, `C56_device_time`, `C57_stamped_partial`, `C58_answered_partial`, `C60_rates_partial`, `C61_defined_partial`, `C61_handlers_partial`, `C62_contexts`, `C63_time_request`, `C64_accepted`, `C64_applied`, `C64_replay`, `C65_answers`, `C65_handle`, `C65_request`, `C65_sent`, `C66_defined_partial`, `C66_ends`, `C66_exact`, `C66_overread`, `C66_wild`, `C67_overflow`, `C67_periods_partial`, `C67_wrong`, `C68_answers`, `C68_once`, `C68_stop`, `C69_kept`, `C69_none`, `C69_pending`, `C69_resend`, `C95_datarate`, `Sx126x.C100_asleep`, `Sx126x.C101_defined_partial`, `Sx126x.C124_lines`, `Sx126x.C125_rest`, `Sx126x.C127_armed`, `Sx126x.C138_once`, `Sx126x.C140_sync`, `Sx126x.C73_power`, `Sx126x.C78_kept`, `Sx126x.C81_sleeps`, `Sx126x.C81_woken`, `Sx126x.C83_stuck`, `Sx126x.C87_safe`, `Sx126x.C88_rand`, `Sx126x.C89_board`, `Sx126x.C90_busy`, `Sx126x.C92_held`, `Sx126x.C96_join`, `Sx126x.C96_on_air`, `Sx126x.C96_uplink`, `Sx126x.C97_power_partial`, `Sx126x.C97_refused`, `Sx126x.C97_wrong`, `Sx126x.C98_window`, `Sx126x.C99_delivered`, `Sx126x.C99_received`, `Sx127x.C100_asleep`, `Sx127x.C101_defined_partial`, `Sx127x.C102_awake`, `Sx127x.C124_front`, `Sx127x.C124_start`, `Sx127x.C137_narrow`, `Sx127x.C137_wide_partial`, `Sx127x.C137_windows`, `Sx127x.C138_once`, `Sx127x.C140_private`, `Sx127x.C140_public_partial`, `Sx127x.C72_power`, `Sx127x.C78_kept`, `Sx127x.C78_last`, `Sx127x.C80_framed`, `Sx127x.C82_lora`, `Sx127x.C82_modes`, `Sx127x.C83_init`, `Sx127x.C83_terminates`, `Sx127x.C85_port_partial`, `Sx127x.C85_quality`, `Sx127x.C85_wrong_port`, `Sx127x.C86_receives`, `Sx127x.C87_safe_partial`, `Sx127x.C88_rand_partial`, `Sx127x.C91_preamble_partial`, `Sx127x.C93_held`, `Sx127x.C96_join`, `Sx127x.C96_on_air`, `Sx127x.C96_uplink`, `Sx127x.C97_power_partial`, `Sx127x.C97_refused`, `Sx127x.C97_wrong`, `Sx127x.C98_window`, `Sx127x.C99_delivered`, `Sx127x.C99_received`, `reenter_none`.

**propext, Quot.sound** (78): `C.C142_null`, `C.C148_faults`, `C10_deadlock`, `C111_leftovers`, `C117_ignored`, `C118_other_channel`, `C119_default_changed`, `C120_not_atomic`, `C121_alike`, `C121_secret`, `C122_sharp`, `C123_lost`, `C123_none`, `C123_overwritten`, `C128_astray`, `C129_faint`, `C12_backoff`, `C12_join`, `C130_echo`, `C133_share`, `C139_reuse`, `C141_foreign`, `C19_stale`, `C23_not_repeated`, `C24_wraps`, `C25_sends_unjoined`, `C26_port_zero`, `C27_accepted`, `C30_forged`, `C31_zero_replay`, `C33_forged`, `C34_foreign_ack`, `C35_port0`, `C44_stale_join`, `C47_decode`, `C48_bits`, `C49_cntl1`, `C49_cntl6`, `C56_shift`, `C57_join`, `C57_on_air`, `C57_refused`, `C58_dropped`, `C59_setters`, `C60_dr256`, `C61_null_callback`, `C61_shift`, `C66_shift`, `Sx126x.C124_start`, `Sx126x.C126_image_partial`, `Sx126x.C126_other_band`, `Sx126x.C71_frequency`, `Sx126x.C75_setup`, `Sx126x.C77_transmits`, `Sx126x.C78_interrupts`, `Sx126x.C78_last`, `Sx126x.C79_reads`, `Sx126x.C80_framed`, `Sx126x.C83_init`, `Sx126x.C84_overflow`, `Sx126x.C84_receives`, `Sx126x.C84_tcxo`, `Sx126x.C87_null_init`, `Sx126x.C94_ldro_partial`, `Sx126x.C94_sf11_bw250`, `Sx127x.C125_paced`, `Sx127x.C127_masked`, `Sx127x.C70_frequency`, `Sx127x.C74_setup`, `Sx127x.C76_transmits`, `Sx127x.C78_interrupts`, `Sx127x.C79_reads`, `Sx127x.C87_before_init`, `Sx127x.C88_overflow`, `Sx127x.C89_board`, `Sx127x.C91_ignored`, `Sx127x.C94_ldro_partial`, `Sx127x.C94_sf11_bw250`.

**propext** (2): `C47_unique`, `C56_inverse`.

**none** (1): `C.Drv.C151_text_members`.
