# Formal model of icarus-ndnsim

Subject: the C++ sources of ICARUS-ICN/icarus-ndnsim in `/repo` (read as text; never built or run here).
Tool: Lean 4.33.0 with selected Mathlib modules.  The Lake project is `lean/`.

## Layout

| directory | content |
|---|---|
| `lean/Verif/Model/*.lean`  | the model: one file per group of C++ files, every definition cites the file and lines it follows and lists its simplifications |
| `lean/Verif/Lemmas/*.lean` | helper lemmas (no claims made here) |
| `lean/Verif/Props/*.lean`  | the properties: a small independent specification, the theorems named in `MANIFEST.json`, and next to each theorem an `example` with a concrete case meeting its hypotheses |
| `properties.jsonl` | the properties in English |
| `MANIFEST.json` | property -> theorems, status |
| `seeded/LOG.jsonl` | mutation tests of the model: what was broken, which theorems noticed |

## Trusted base

* Lean's kernel (and the elaborator only in so far as the statements displayed are the statements checked).
* The three standard axioms `propext`, `Classical.choice`, `Quot.sound`; nothing else. No own axioms, no `sorry`,
  no `native_decide`, no `bv_decide`.  `lean/Verif/Audit.lean` prints the axioms of every claimed theorem during the build.
* The reading of the C++: the model is tied to the code only by the file/line citations in the model files.
* What is *not* C++ of this repository is taken as an assumption and represented by a parameter, by nondeterminism, or by a small model of
  its documented behaviour:
  * ns-3 `Simulator`: time is an integer number of ticks, events are executed in nondecreasing time order; events of equal
    time run in the order in which they were scheduled (`insertEvent` in `Model/Machine.lean`).  Receivers are modelled under *every*
    interleaving of arrivals (so arrival/finish ties occur in either order);
  * ns-3 `Queue<Packet>`: FIFO with an arbitrary acceptance rule `accept queue packet` (covers drop-tail of any capacity and unit);
  * ns-3 `Object::AggregateObject` (aborts when an object of the type is already aggregated), `Mac48Address::Allocate` (a fresh number),
    `GeographicPositions` (geographic/cartesian conversion on sphere and ellipsoid), `CalculateDistance`, `DataRate::CalculateBytesTxTime`
    (a transmission time per packet), `int64x64_t` division (truncating quotient): modelled from ns-3's documentation;
  * ns-3 `TypeId`, `ObjectFactory`, `QueueBase::AppendItemTypeIfNotPresent` and `PcapHelper::HookDefaultSink` (C72): a small model of their behaviour
    in release 3.30, not checked against the ns-3 sources (they are not in the repository);
  * NDN/NFD services (`isNextHopEligible`, retransmission suppression, PIT out-records, FIB): arbitrary values; for C98 only, NFD takes no time and forwards an Interest once per
    satellite (it drops an Interest whose nonce it has seen); for C99 only, in addition, PIT entries have one in-record, Data that match a live entry go once and at once to its face,
    never to the face they came from unless it is the ad-hoc one, and producers answer at once;
  * ns-3 propagation delay/loss models and mobility of nodes: arbitrary functions of time; random variables: arbitrary draws.  For C90 only,
    `ConstantSpeedPropagationDelayModel` is distance over 299792458 m/s, converted to ticks by any monotone rule that commutes with whole ticks;
  * the GSL bracketing root solver (`gsl_root_fsolver`, brent): an arbitrary function with the contract that a reported success lies in the bracket (C51), or, for C81 only, Brent's method as in GSL's
    roots/brent.c, modelled in `Model/Brent.lean` in exact arithmetic and not checked against the library's sources;
  * C++ `double`: an abstract ordered field, exact rationals, or exact real numbers (orbit geometry, LoRa and Poisson arithmetic, received powers).
    The MAC models take any type with 0 and + for powers and coefficients; C84 uses doubles with rounding (unbounded exponent) there.
    Rounding and overflow of `double` are **not** modelled.  Results that are no real number (NaN, division by zero) are the separate outcome
    `notANumber`, conversions of an unrepresentable `double` to an integer the outcome `badConversion`.

## Outcomes

C++ functions that can fail are modelled in `Outcome α = ok a | ub kind | abort | assertFail` (`Model/Outcome.lean`).  `NS_ASSERT` failures are
`assertFail` (they vanish in optimised builds: both builds are modelled with a `debug : Bool` parameter, and theorems hold for both unless they say
otherwise), `NS_ABORT` is `abort`, and out-of-range vector accesses, null dereferences, invalidated iterators, uninitialised reads, buffer overflows and
endless loops are `ub`.  Undefined behaviour is never replaced by a default value.

## How executions are modelled

Devices and receivers are step machines (`Model/Machine.lean`): a state with a clock and a list of scheduled events, operations (external calls with their
time, and "run the next event"), and a step function that is `none` when the operation is not possible (a call before an event that must come first).
`exec ops` runs a list of operations; theorems quantify over all lists.  States carry ghost logs (accepted, refused, on the air, delivered) with times.
Senders are proved to refine `Fifo.serve` (`Props/Fifo.lean`), a five-line specification of a first-in first-out sender.

Compositions (`Uplink`, `Downlink`, `IslNet`) put all devices of all nodes and the channel in one machine.  Simplification: events of
*different* devices at the same tick may run in any order (more behaviours than ns-3 has; theorems hold for all of them).

## Simplifications common to the whole model

* Smart pointers and ns-3 objects are opaque identifiers; logging and tracing without observable effect are dropped, trace
  sources that matter are outputs of the step functions.
* C++ integer types are `Nat`/`Int` unless wrap-around matters (then the reduction is explicit: `UInt16`, `% 65536`, `% 2^32`).
* Packets are opaque ids plus the attributes that the code reads (uid, transmission time, tags).
* Not modelled: `GetTypeId`/attribute plumbing and tracing set-up except for the helpers in C72 and C76, the examples (except intermittent-communication.cc in C110, settings in C63, C67, C87, C106-C108 and C112, and the coordinate conversion of C88), the `doc` directory, NFD and ndnSIM themselves, ns-3
  itself except as listed above.

## Validation of the model against the repository's tests

`lean/Verif/Props/RepoTests.lean` evaluates the model on the inputs of `test/icarus-address-test-suite.cc` and `test/icarus-test-suite.cc` and proves that
it yields what these tests expect, within their tolerances (address encoding and parsing, links per satellite, position and altitude after 9384 s, slant
range at five elevations, a crossing within 10 s of the expected pass).  These are checks of the reading of the C++ on single inputs, not claims, and they are
not listed in the manifest.  The tests of `test/icarus-mac-model-test-suite.cc` are statistical; C77 has the limits they compare with for Aloha.

## Per property: what is modelled and how it is proved

"Negation" means that the English claim is false of the code; then a theorem `..._claim_false` proves the negation of the formal claim from a concrete
witness and the `_partial` theorems prove what does hold.

| id | model | what is modelled | how it is proved |
|---|---|---|---|
| C01 | SatAddress | three 16-bit fields, byte-level `CopyTo`/`CopyFrom`/`ConvertTo`/`ConvertFrom` for either host byte order, type and length check | round trips, injectivity, exact wire format; release build with a wrong length reads uninitialised bytes (`ub`) |
| C02 | SatAddress | `operator<<`, `operator>>` on character lists incl. `getline`, failing fields, stream flags | print/parse round trip with arbitrary rest, injectivity; witnesses for left-aligned streams and empty fields |
| C03, C04 | Constellation | table of optional devices, address given to each, `AddSatellite`, `GetSatellite`, `GetSize`, `CreateNetDeviceContainer` | invariant over every history of successful additions; witness beyond 16 bits |
| C05 | Constellation | `GetClosest` loop, arbitrary distances | loop invariant |
| C06, C07 | Constellation | `Get`, `GetSatellite (plane, index)` with guards and raw vector access | enumeration for complete constellations; negation at the boundary |
| C08, C09, C10 | ConstellationHelper | launch counters, angles as exact rationals | closed form by induction on launches; negation for one launch too many |
| C11, C12 | Isl | nested loops of `ISLHelper::Install`, node lookup | link list = torus neighbour relation, each once; degree count |
| C13, C14, C15 | GeoTag | `getTarget` with C++ truncating division on `Int`, the strategy at every satellite | distance decreases by one; exact and minimal path length; negation for tags outside the constellation |
| C16 | GeoTag | `afterReceiveInterest` over arbitrary next-hop lists and NFD answers | decision table |
| C17 | Aloha | slotted `Send` with the fixed-point quotient | arithmetic |
| C18, C19, C20 | Aloha, AlohaSir | receiver as step machine, capture with powers | history invariant: delivered iff nothing overlapped; negation for ties start-before-end; capture decision over reals. The theorems on Aloha and CRDSA without capture (C18, C25, C56, C58, C68-C70, C77, C79, C80) use one property of the loss test, `Drops`: frames sharing a busy period are dropped. It is proved for the default threshold, for finite thresholds above the spread of the powers, and for doubles (C84) |
| C21, C22 | Crdsa | slot selection from a shuffled table, replica distribution | permutation; interval characterisation; Lebesgue measure of each outcome |
| C23-C26, C56 | Crdsa | receiver: busy periods, received-packet memory, interference cancellation with vectors and iterators | history invariants; peeling closure as inductive predicate (soundness, completeness, termination); negation for iterator invalidation; whole-history refinement (C56) |
| C27 | NoneMac | pass-through MAC | history equations |
| C28-C31 | GroundSatChannel | `Transmit2Sat`, `Transmit2Ground`, attach, `GetDevice` | function-level equations for all constellation histories; negation for absent satellites |
| C32 | Sat2SatChannel | attach, `TransmitStart`, `GetDevice` | for all attach histories |
| C33 | Sat2SatChannel | success model over real vectors | segment geometry |
| C34, C35 | GroundSta | sending side with an arbitrary MAC plan, packet tags | phase invariant, refinement of `Fifo.serve`; negation for CRDSA with two replicas |
| C36, C37 | GroundStaRx | receiving side, `SetRemoteAddress`, transport URI | history invariants |
| C38 | SatDevices (Sat2Ground) | sending side | refinement of `Fifo.serve` |
| C39, C40 | SatDevices (SatNet) | sending side incl. the protocol argument, receiving side | refinement of `Fifo.serve`; negation for the protocol number and its exact value |
| C41 | PacketTag | tag serialisation to bytes | round trip, layout |
| C42, C43 | Tracker | trackers as step machines over an arbitrary motion of the constellation | closed form of the schedule; arg-max; witness for an empty seat |
| C44-C48 | Orbit | `circular-orbit*.cc` formulas over the reals | trigonometric identities |
| C49, C50 | SuccessModel | distance and elevation rule | equations; negation for two satellites |
| C51 | Search | `findNextCross`, `tryFindNextCross`, window loop; root solver abstract | case analysis; induction over windows |
| C52, C53 | Traffic | LoRa and Poisson helper arithmetic with explicit wrap-around | algebra; witnesses for every excluded corner |
| C54 | IcarusHelper | installation loop with aggregation | induction over the node list |
| C55, C58 | Uplink | all stations (any MAC) + channel + all receivers (pass-through, Aloha, CRDSA) | multiset account of every frame, projections to the single-device theorems, progress |
| C57 | Search, Orbit | observer placed from geodetic coordinates (iterative ns-3 conversion) | negation off the equator, proof on it; for all nodes the misplacement is below 43.5 km (projection onto a ball does not increase distances), and a station on the ellipsoid at geodetic latitude φ is observed from geocentric latitude φ |
| C59 | Downlink | all satellites + channel + all stations | as C55, with tracked addresses over time |
| C60 | IslNet, Isl | all inter-satellite devices + channels; wiring made by `ISLHelper::Install` | as C55; unique device per neighbour; order condition and overtaking witness |
| C61 | Transport | transports of one node, protocol handlers, signal connections, life cycle; ns-3 `Node` and NFD `Transport` are environment | invariant over executions relating every transport to the operations after its creation; `useAfterFree` characterised by an iff |
| C62 | Transport | queue capacity as `uint32_t` product | arithmetic; wrap threshold exact |
| C63 | Scenario | whole set-up of examples/ground2groundping.cc: `IcarusHelper::Install`, `ISLHelper::Install`, device lists of nodes, face kinds, default routes, strategy constructor; ndnSIM's default routes and NFD's eligibility (not the ingress face unless ad hoc) are modelled from their documented behaviour | C54 gives devices and addresses, C11 the links, C60 one device per neighbour, C13/C16 the choice; induction on the torus distance |
| C64 | FaceUri | `constructFaceUri`, the URIs passed to the transports, remote-device selection; ns-3's printing of MAC addresses is modelled from its documented format | injectivity of hexadecimal text and of the byte split; case analysis on the two ends; `build_ok` of C63 |
| C65 | DeviceDetail | `Send`, `TransmitStart`, `TransmitComplete` of the ground and down-link devices with the packet's tag list (ns-3: `AddPacketTag` asserts no tag of the type in debug builds, `Peek`/`Remove` take the newest) | simulation into the model with one tag per entry (C34); down-link by simulation into the ground device with the None MAC; claim without the condition refuted by a witness |
| C66 | DeviceDetail | firing of the transmit-side trace sources of the three devices | invariant relating the trace to the ghost logs |
| C67 | LaunchedOrbit (with ConstellationHelper, Orbit, Sat2SatChannel) | conversion of the helper's angles, orbit, reported positions, success model set up with the orbit radius; exact real arithmetic | spherical trigonometry as polynomial identities; extremes of a cosine; numerical bounds for pi, sine and cosine proved in Mathlib; claim that all links between planes move alike refuted by a witness |
| C68 | SlottedUplink | same system as C58, all stations with slots | overlaps at a satellite = equal slot starts, counting argument on the multiset of heard frames; equality case refuted by a witness |
| C69 | CrdsaLong | receiver model of C23-C26 with an arbitrary earlier history | simulation relation between a receiver with a past and a new one (left-over collisions are inert); induction over rounds with C56 |
| C70 | CrdsaSlots, CrdsaUplink | same system as C55 with CRDSA MAC and receivers | busy periods = slots and peeling = slot-wise decoding (via C69); multiset account of C55 gives the receiver's traffic hypotheses; induction for absence of failures |
| C71 | Visibility | elevation tracker of Model/Tracker over the orbits of Model/Orbit, exact reals | angle triangle inequality on the sphere for the length of a pass; intermediate value theorem and compactness for the first setting; `C43_chain` for executions. The search is a hypothesis (`Faithful`: at most `δ` late, `δ` ≤ 1 s up to 10000 km and ≤ 900 s up to 2000 km, never in the past); that the real search meets it is not proved: C57 shows it works with a slightly different radius and latitude, and C104 that it can fail near the end of a pass. Geostationary and standing-clock counterexamples proved. Non-vacuity: a ring of four equatorial satellites covers a station for ever. |
| C72 | HelperConfig | `Model/HelperConfig.lean`: both helpers' factories, setters, object creation and capture hooks, the class tables of the repository, and ns-3's TypeId / ObjectFactory as far as needed (these ns-3 parts are from knowledge of release 3.30, not from sources in /repo, so they are trusted). Other classes are a parameter. Not modelled: ASCII traces, initial values from the environment. | `C72_last_set` by induction over the calls with an invariant per factory; `C72_defaults`, `C72_same_mac`, `C72_device_attribute` (iff), `C72_device_attribute_fatal`, `C72_wrong_kind`, `C72_isl_success_model` (any class name, any build) with `C72_isl_default_fails`, `C72_promiscuous`, `C72_sniffer`; `C72_reset_claim_false` refutes that selecting a class again restores initial values. |
| C73 | Network | `Model/Network.lean`: the models of C55 - C60 in one simulator with one channel for both directions and one tracked address per station; calls of `Send` at any node are arbitrary. Simultaneous events of different devices may run in any order. | `C73_parts` (projection to the three parts), `C73_safe`, `C73_one_address`; `C73_route` by strong induction on the history: the last hop from the books of C55, C59, C60, the sender either had got the packet (shorter history) or is the origin; `C73_latency`, `C73_ground_to_ground`. Receivers enter by `Honest`, proved for all three MACs (`C73_none_honest`, `C73_aloha_honest`, `C73_crdsa_honest`); for CRDSA the transmission time on the uplink is not counted, as replicas of one packet may overlap. Non-vacuity: a packet going station - satellite - satellite - station. |
| C74 | GridDistance | `gridLinks` of Model/Isl | lower bound: a link changes the ring distances by at most one; upper bound: a neighbour that is nearer always exists; losses: rings cut open at a place or a link, prisms for rings of two. `C74_two_satellites` shows the exception. |
| C75 | GridNetwork | Model/Network with the devices of the grid | `C73_route` with the shape of routes when stations do not relay (`route_sats`), `C74_no_shorter` for the satellites in between; `C75_grid` shows that the helper's devices meet the hypothesis on the links. |
| C76 | RxDetail | Receiving side of the three devices with every call of a trace source or callback recorded in order (`Model/RxDetail.lean`); `EnableAsciiInternal` of both helpers with the classes of `Model/HelperConfig.lean` | Invariant `Kept` along executions: beginnings = wanted frames, other calls = concatenation of the calls per finished reception; finished plus pending is a permutation of wanted; for satellites over any `Honest` receiver that `Grows`, with the three MACs as instances; a refinement to the model of C36; ASCII by evaluation over the class tables |
| C77 | Throughput | The sender and receiver of `Model/Aloha.lean`; no new model. Assumption: choices of hand-over ticks are counted uniformly (one frame per station), where the test uses Poisson sources | Overlap of two frames is a relation between the two choices only (C17, C18); the choices in which station `i` conflicts with nobody are counted by fibres over its own choice; limits by squeezing `(1 - x)^n` between exponentials. Executions exist for every setting (`complete_exists`) |
| C78 | InstallCalls | `Model/InstallCalls.lean`: the seven `Install` overloads over `installPriv`, several channels, names that may be unknown (null), null dereference in `SetConstellation` and `GroundStaNetDevice::Attach`; one constellation helper for all calls, name table constant | calls are flattened to single actions (new channel, set constellation, install node); induction over the actions gives the closed forms of base state, channel lists and flags; success by the installation invariant of C54; transmissions by evaluating `transmit2Sat` on the resulting channel |
| C79 | CrdsaThroughput | slot choice and receiver as in C21/C70; orders of the slot table are permutations of `Fin n`, all counted (uniformity of `std::shuffle` is C85; one frame, two replicas) | prefixes of orders are counted by symmetry; the receiver passes up the decodable packets (C70), which contain those alone in a slot and no pair in the same slots; both are counted exactly (inclusion–exclusion), the limit follows from `(1 - x)^n → exp (-g)` |
| C80 | UplinkOrder | the network of C55/C58/C68/C70, with the time at which every arrival and every end of a reception was scheduled; of two such events due at the same time the one scheduled earlier runs first (ns-3's rule; equal times of scheduling and station events stay free, so ns-3's order is one of those covered) | every execution in this order is one of the earlier model (`C80_refines`); invariant: an arrival is due one delay after it was scheduled, an end one duration; so with frames longer than delays each receiver runs ends first (`C80_ends_first`) and the results for that order apply; `C80_claim_false` is the witness with delays longer than frames; progress by choosing the least time of scheduling among the least due times |
| C81 | Brent | `brent_init`, `brent_iterate` of GSL's roots/brent.c statement by statement in real numbers (`Model/Brent.lean`; the library is not in the repository), plugged into the search of `Model/Search.lean` | Invariants of the iteration: all points inside the interval, numerator and denominator of an accepted step of the same sign and non-zero, the points `b` and `c` (or `a`) on different sides. Without a change of sign the method bisects towards the better end. Convergence within 1000 iterations is a hypothesis where there is a change of sign (proved where there is none); the examples give passes on which two iterations suffice. Exact arithmetic. Relative to the observer of the search (see C57 for its misplacement) |
| C82 | Passes | the distance of `Model/Search` as a function of time, `findNextCross` with Brent's method (`Model/Brent`) | the cosine of the angle satellite–observer satisfies y'' + n²y ≤ n²·drift (the observer's rotation is the disturbance); Sturm-type comparison with a sinusoid gives no gap, half-orbit bound and setting; then the answers of the two searches are located among the crossings. Not covered: a first answer at the end of the next pass while the satellite is now further than a second before that answer (the second search may then answer the rise). Convergence of the second search within 1000 iterations is a hypothesis, as in C81; exact arithmetic |
| C83 | Queries | `Model/Queries`: the query functions of `CircularOrbitMobilityModel`, null orbit, missing ground model; `Time` conversion left out | case analysis; induction over the windows in both directions; spherical geometry (the sine of the satellite's latitude is at most sin j, Cauchy–Schwarz for the horizontal part) |
| C84 | Double (model `Model/Double`) | binary64 with unbounded exponent: numbers with a significand of 53 bits, every operation rounded to a nearest such number, ties open; the models of `numReplicas`, Aloha and CRDSA are the same, their numbers are now doubles; `log10` of the C library assumed accurate to one part in 2^50 (capture only). Overflow and subnormal numbers are not modelled | relative error 2^-53 per operation from nearest-ness; monotonicity; a rounded sum of powers within 156 dB exceeds each of them, which is `Drops`, the only property of the test that the Aloha and CRDSA theorems use |
| C85 | Shuffle (model `Model/Shuffle`, `Lemmas/Shuffle`) | `UniformRandomGeneratorAdaptor`, `std::shuffle`, `__gen_two_uniform_ints` and `uniform_int_distribution` (downscaling, both methods, with `UInt32`/`UInt64` arithmetic) as in the headers of libstdc++ 13; the upscaling branch is a separate outcome that is proved unreachable; generator values are a list, running out of them is an outcome. ns-3's `RandU01` and `GetInteger` are modelled from the published code, exactly | the accepted values of each result form an interval of length ⌊2^32/ρ⌋; counting sequences by recursion over their length; the swap positions are determined by the resulting order (the entry of the last position tells where it went); means via disjoint products |
| C86 | Gsl (model `Model/Gsl`) | constructor, destructor, `operator()`, `solve` of `DistanceSolver` and `findNextCross` with the library's state: error handler (null, off, the user's), solvers allocated; library functions as documented, root finder open as in C51 | the handler is off between constructor and destructor, so every error returns; induction over the iterations; case distinction on the allocation |
| C87 | SetUp (model `Model/Scenario`) | `IcarusHelper::Install` and `ISLHelper::Install` in sequence, as in C63, for any number of satellites and any container | closed form of the state after the installation (C54); pigeonhole for the empty seat; induction over the nodes for the surplus satellite |
| C88 | Geodetic (model `Model/Geodetic`) | `CartesianToGeographicCoordinates` in exact real arithmetic; the position of a point of given coordinates by the formula of ns-3's `GeographicToCartesianCoordinates`, which is the specification; the constants are compared with the definitions of the spheroids | the iteration is a contraction by 3/250 around the true latitude (Lipschitz bounds for `arctan` away from the centre and for the prime vertical radius); close to the pole, an explicit bound for the first step |
| C89 | Motion (model `Model/Motion`, with Orbit, Tracker) | `DoGetPosition` at whole nanoseconds, stations at rest, the periodic tracker with squared distances; exact real arithmetic | chord at most arc for a product of two rotations, triangle inequality, C42 for the updates; the stronger claim refuted by a witness with two equatorial satellites |
| C90 | MotionLinks (with Motion, Uplink, Downlink, IslNet) | the end-to-end machines of C55, C59 and C60 with delays given by `linkDelay` (Model/Motion): ns-3's `ConstantSpeedPropagationDelayModel`, conversion to ticks as a parameter | C89 for the change of the distance; a monotone, tick-invariant rounding changes differences by less than one tick; sorted permutations of strictly sorted lists are equal; gapless claim refuted by a witness |
| C91 | Rest (with Uplink, UplinkOrder, Downlink, IslNet) | the end-to-end machines of C55, C59, C60 and C80; `Op.internal` separates scheduled events from calls | every scheduled event makes a weighted count of what is left smaller; as long as something is scheduled some event can run (C55, C59, C60, C80); with nothing scheduled the invariants of the devices leave no packet in a queue |
| C92 | Realize (with Rest, UplinkOrder) | the machines of C55, C59, C60, C70 and C80 | until the time of the next call, run events: one can run as long as one is overdue (C91's progress), each makes the remaining work smaller, and none advances the clock past the call; then the call is possible; after the last call run to rest |
| C93 | EndToEnd (with Realize, Throughput, CrdsaThroughput) | the machines of C55, C70 and C80 with one packet per station | a station asked once accepts the packet and hands it to its MAC at once; C68, C80 and C70 say what is passed up; the counting of C77 and C79; C92 for the existence of the runs |
| C94 | QueueDelay (model `Model/Queue`; machines of C34, C38, C39) | ns-3's drop-tail queue (external: refuses what would exceed the limit; counters do not wrap) and `getSendQueueLength`; the devices as before | invariant of the station for every MAC: while packets wait, some event of the last hand-over ends its transmission in time, and what a waiting packet has in front of it shrinks by as much as time passes; the satellites' devices are simulated by the station without MAC; an explicit family of executions reaches the bound |
| C95 | LinkDelay (machines of C73, queues of C94) | nothing new: the network machine of C73 with the queues of C94 | the queue invariants of C94 for every device, composed with what C73 shows each hop to be; induction over the journey; for delivery, the liveness of C94 composed with the channels' and receivers' statements; a concrete execution of the CRDSA receiver for the negative part |
| C96 | Geocast (set-up of C63, machines of C73, delays of C95) | nothing new: the set-up built by the helpers' code (C63) and the network machine (C73), tied together by `Realizes` (satellites of the machine are nodes of the set-up with the same address; link devices are the ends of the set-up's links). NFD is a parameter: `Loyal` (satellites send the Interest only when the strategy code's decision asks for it) for (a), `Obeys` (the decision is carried out within H) for (b) | (a) going back from the station over the sends to the arrivals they answer, by induction over prefixes of the execution, with the torus distance as the measure the strategy decreases; (b) induction over C63's route with the delivery theorems of C95; an execution on a concrete two-satellite constellation to which both theorems are applied |
| C97 | Alive (machines of C73) | nothing new: the network machine of C73, with operations split into calls from outside and scheduled events | the parts' progress and work measures (C91) put together: the network's next event is the earliest of its parts' next events, and all parts that take part in it can; then the general construction of C92 (`Runs.realize`) for the whole network |
| C98 | ClosedLoop (machines of C63, C73; Lemmas/Loop) | satellites' NFD: the first time one of the Interests is passed up on a face, it is given at once to the device of the face that the model of the strategy chooses; NFD drops what it has sent before (nonce). All other NFD behaviour is outside; NFD's tables are parameters as in C63 | (a) general construction `Runs.loop` on top of C97: owed calls are made first, each lowers the number of (satellite, Interest) pairs left; (b) invariant: what has come in has been sent on by then or came in just now; induction on the distance with the per-link deadlines of C95; (c) C96 with the same invariant, so no satellite keeps the Interest |
| C99 | Ping (on ClosedLoop) | in addition to C98: PIT entries (face and time of the one Interest that a satellite forwarded, live for `life`), producers at stations (`prod`), Data to the recorded face once and at once, not to the face it came from except the ad-hoc face 0. Content stores, retransmissions and aggregation are outside | (a) `Runs.loop` again, with answers counted per (node, Interest) and (node, Data); (b) C98 there; back by induction on the distance: the face recorded by a satellite is the link from the next one on the way to d0 (nearer satellites only forward away from d0), so Data never turn back; (c) induction over prefixes of the execution: each Data sent has come in before or was made by a producer |
| C100 | TrackedNet (on Network, Tracker, Motion) | the network and one tracker per station in one simulator: nothing runs before anything scheduled earlier; a tracker's call is its event (`periodicFire` or `elevationFire`) and the assignment to the device. Trackers read functions of time (as in C42/C43), start at 0, exact reals, simultaneous events in any order | (a) induction: both parts are runs of their own machines, tracked addresses agree; (b) C42's chain says when the last call was, C89's bound on speeds what may have changed since; a packet sent at time 0 may precede the first call (example), so v > 0 is needed; (c) C75's delivery with the range shown to hold during the flight; (d) a step is always possible for the earliest event; (e) (c)+(d), and the queue's room counted by sends |
| C101 | TrackedNet with `Tracker.elevationFire` (on Network, Visibility) | as C100, with elevation trackers; elevations and setting times as in C71 (`Faithful`: at most delta late), a satellite with a later setting time always there (`Watching`) | (a) induction, C73 and C43; (b) C43's chain for each prefix of the execution: the last call before the packet, and the next one pending; (c) C75's delivery: the link is open during the flight because the satellite was above the elevation at most `extra` before; (d) C100_runs and (c); (e) the pending call at the same time is an invariant that keeps the clock |
| C102 | Orbit, Motion, SuccessModel `elevationSuccess`, TrackedNet | the channel's success model is the code's elevation model at the stations' and satellites' positions (`ElevationLink`); exact reals | (a) elevation = pi/2 minus an angle, triangle inequality of angles, chord and Jordan's inequality, C89's speed bound; (c) C73's sources of what is received; (d) from (a); (e) C101's service |
| C103 | TrackedNet, SuccessModel `elevationSuccess` | as C102, without the room between the minimum elevations | (a) C102's source of what is received and C34's order and spacing of transmissions; (b) explicit setting time of an equatorial satellite (arccos), C43's chain: until then the tracker keeps the satellite; C100's existence of executions, then (a) |
| C104 | Search, Observer, Orbit (`tryGetNextTimeAtElevation`), Tracker (`elevationFire`), exact reals | what the tracker is told is what the modelled code computes (`Told`): elevations, periods to the nanosecond, answers of the search made whole nanoseconds | (a) C82's bound on the acceleration of the cosine: no dip within half an orbit, further away half an orbit after; mirror image of C82 for rising; C51's acceptance test; (b) loop of `getVisibleSats` meets the satellite; (c) C43's update and C71's length of a pass; (d) C71_soon; (e) explicit elements with rational sines, C57_surface for the observer, numeric bounds on square roots, cosines and pi |
| C105 | Search, Brent, Observer, Orbit (`tryGetNextTimeAtElevation`), Tracker (`elevationFire`), exact reals | `Told` as in C104; C81's GSL Brent; convergence of the second call assumed | elevation and distance as conditions on the cosine between satellite and observer (on the equator the observer of C57 is exact); their thresholds differ by 0.000008 to 0.004; Taylor bounds with C82's bounds on the acceleration of the cosine turn this into two seconds of slack at the start and 148 seconds at the end; C82's never_late; (b) angles modulo a turn; (c) C43's update, C71's length of a pass; (d) a chord through the ends of the period that meets the setting exactly |
| C106 | ConstellationHelper (`launchAll`), LaunchedOrbit, Orbit, Search, Tracker (`elevationFire`, step machine), exact reals; examples/elevation-tracker.cc's parameters; its printing callbacks are not modelled | `Told` as in C104; `Finds`: the solver answers if the signs at the interval's ends differ (from C81's Brent when it converges: `C106_brent`); station at (6378137, 0, 0), i.e. ns-3's GeographicToCartesianCoordinates is exact; time need not advance between updates | (a) the plane whose node is nearest to the station's meridian, the satellite nearest to it: angles at most 3 and 4.3 degrees off, against a reach above 6 degrees; (b) C105's thresholds with the numbers of 400 km: a satellite visible now is far away a period later as the Earth turns by 23 degrees; (c) C105's update; (d) induction over executions; (f) a root finder chosen classically |
| C107 | Network, SuccessModel (`distanceSuccess`), ConstellationHelper (`launchAll`), LaunchedOrbit, Orbit, Geodetic (exact); applications and NDN forwarders of the example are any senders | exact arithmetic; ns-3's GeographicToCartesianCoordinates as in C88; stations only track launched satellites; the receivers' honesty is C73's | (a) `up_source`/`down_source` of C73 lead back to the transmission, whose admission is the model's answer; (b) the satellite's height over the equatorial plane is its radius times sin(inclination) times the sine of its angle, below the station's height minus 1000 km; (d), (e) from both; (f) C97's traffic in a concrete network |
| C108 | Network, SuccessModel (`elevationSuccess`), ConstellationHelper (`launchAll`), LaunchedOrbit, Orbit, Geodetic (exact); the example's UDP applications are any senders | exact arithmetic; ns-3's GeographicToCartesianCoordinates as in C88; stations only track launched satellites; the receivers' honesty is C73's | (a) law of cosines with C48's sine; (b) `up_source`/`down_source` of C73 and the model's answer; (c) at 25 degrees the satellite is within 640 km, so its height over the equatorial plane is close to the station's; (d) the sine is 1-Lipschitz; (f) C97's traffic in a concrete network |
| C109 | Crdsa, GroundSta, GroundSatChannel, Uplink, Queue (`dropTail`) | as C25-C26 and C70, without its limit of two replicas and its condition on powers; executions that fail (C24, C70) are not considered | invariant: every packet of the current or a remembered busy period has a replica in it, since whose start the receiver has been busy until the period's end; periods that ended two frames ago are forgotten (C26); (d) slots by counting planned frames; (e) C94 |
| C110 | Intermittent, Orbit, Geodetic | distances in metres, exact real arithmetic; division by 1000 and printing not modelled; the school's position by the ellipsoid formula of C88 | invariant of the event loop (one `showDistance` pending before the stop, running extremes); (c) triangle inequality with C46 and the school's distance from the Earth's centre, C107, the satellite's height over the equatorial plane at 4022 s, and Taylor bounds for all coordinates at 11541 s |
| C111 | Crdsa, Aloha | both receivers under the same history; executions in which the CRDSA receiver fails (C25) are not considered in (a), excluded in (b) | simultaneous induction over both machines; (b) invariant: remembered collisions keep two unknown packets at least, so cancellation finds nothing; (c) by computation |
| C112 | Orbit, Geodetic, SuccessModel, Network | satellites and stations of examples/sputping.cc as in C108, exact real arithmetic; (c) pass-through receivers only (frames may collide with Aloha and CRDSA), transmissions at the two given instants; first moments of contact and the length of the passes are not determined | Taylor bounds for sine and cosine after removing full turns give boxes for station and satellite, from which the sine of the elevation is at least 0.4227; (c) accounting of frames in the network (C55, C73); (d) C97 supplies the execution |
| C113 | Aloha, Crdsa, NoneMac | receivers and the delays chosen by senders; times are unbounded naturals (C++: 64-bit `Time`, overflow not considered); the random choices of CRDSA senders are given | simulation between the two runs: states differ in times only (before the first frame both clocks are 0), the end of the busy period matters only while there is one; senders: division with remainder |
