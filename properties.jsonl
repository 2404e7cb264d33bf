{"id": "C01", "title": "SatAddress binary round-trip", "statement": "Encoding a satellite address into a generic link-layer address (or into a raw 6-byte buffer) and decoding it again yields an address equal to the original; the encoding is the six bytes constellation-id, plane, index, each most-significant byte first; two addresses compare equal exactly when their encodings are equal. Decoding a generic address of an incompatible type or length is refused by the built-in check (active in debug builds; without it a wrong length reads uninitialised bytes).", "quantifier": "for every triple of 16-bit fields and for every 6-byte buffer", "why_tests_cant": "2^48 addresses; the unit test checks one triple.", "anchors": ["utils/sat-address.cc: SatAddress::ConvertTo, ConvertFrom, CopyTo, CopyFrom, operator==, getConstellationId, getOrbitalPlane, getPlaneIndex"]}
{"id": "C02", "title": "SatAddress text round-trip", "statement": "Printing a satellite address produces exactly four lower-case hexadecimal digits per field separated by colons, different addresses print differently, and reading the printed text back with operator>> yields the same address, whatever follows the text as long as it is not a hexadecimal digit.", "quantifier": "for every triple of 16-bit fields and every trailing text that does not start with a hex digit", "why_tests_cant": "2^48 addresses times arbitrary stream contents; the unit test reads one literal.", "anchors": ["utils/sat-address.cc: operator<<, operator>>"]}
{"id": "C03", "title": "A satellite is found under the address it was given, for ever", "statement": "After any sequence of successful AddSatellite calls, looking up the address returned by each of them yields exactly the device registered by that call, and distinct registrations return distinct addresses. Adding into an occupied position aborts. (Holds only while plane and index fit in 16 bits: with more than 65536 planes two satellites receive the same address.)", "quantifier": "for every constellation size and every history of AddSatellite calls", "why_tests_cant": "Histories and sizes are unbounded, and the property is about all later lookups.", "anchors": ["model/constellation.cc: Constellation::AddSatellite, Constellation::GetSatellite, Constellation::Constellation"]}
{"id": "C04", "title": "Constellation size accounting", "statement": "GetSize always equals the number of satellites successfully added, equals the number of devices listed by CreateNetDeviceContainer, and never exceeds planes times plane size; CreateNetDeviceContainer lists every added satellite exactly once and nothing else.", "quantifier": "for every history of AddSatellite calls", "why_tests_cant": "Invariant over unbounded histories.", "anchors": ["model/constellation.cc: Constellation::AddSatellite, GetSize, CreateNetDeviceContainer"]}
{"id": "C05", "title": "GetClosest returns a nearest satellite", "statement": "GetClosest returns a registered satellite such that no other registered satellite is strictly nearer to the given point, and returns null exactly when the constellation holds no satellite.", "quantifier": "for every set of registered satellites, all their positions and every query point", "why_tests_cant": "Positions are real vectors and the set is arbitrary; ties and insertion order matter.", "anchors": ["model/constellation.cc: Constellation::GetClosest, getSqDistance"]}
{"id": "C06", "title": "Index enumeration of a constellation", "statement": "Get(i) for i from 0 to GetSize()-1 enumerates every registered satellite exactly once, and any i >= GetSize() is rejected with an abort. (False in the code: i = GetSize() passes the guard and reads past the table when the constellation is complete, and for a partially filled constellation null is returned for some i < GetSize(); the enumeration holds for complete constellations.)", "quantifier": "for every constellation and every index", "why_tests_cant": "Depends on all fill states; boundary index never exercised by the tests.", "anchors": ["model/constellation.cc: Constellation::Get, GetSize"]}
{"id": "C07", "title": "Out-of-range lookups are caught", "statement": "GetSatellite(plane, index) with plane or index outside the constellation is rejected by the assertions and never indexes outside the table. (False at the boundary: plane = GetNPlanes() and index = GetPlaneSize() pass the assertions.)", "quantifier": "for every plane and index", "why_tests_cant": "Undefined behaviour at a boundary value does not show up reliably in a test.", "anchors": ["model/constellation.cc: Constellation::GetSatellite(plane, index)"]}
{"id": "C08", "title": "Launch order fills the grid plane by plane", "statement": "The k-th satellite launched through a constellation helper (k counted from 0, k < planes*planeSize) is placed in plane k / planeSize at position k mod planeSize, receives the corresponding address, and all launches up to the capacity succeed.", "quantifier": "for every number of planes, plane size and number of launches", "why_tests_cant": "Unbounded sizes; index bookkeeping wraps at every plane.", "anchors": ["helper/constellation-helper.cc: ConstellationHelper::LaunchSatellite", "model/constellation.cc: Constellation::AddSatellite"]}
{"id": "C09", "title": "Launching beyond capacity aborts", "statement": "Launching one satellite more than planes*planeSize aborts with a message and leaves the constellation untouched. (False in the code: the guard only fires when the position counter is non-zero, so the first surplus launch writes outside the table.)", "quantifier": "for every constellation size", "why_tests_cant": "The failing case is undefined behaviour on an unchecked vector index.", "anchors": ["helper/constellation-helper.cc: ConstellationHelper::LaunchSatellite"]}
{"id": "C10", "title": "Orbital elements of launched satellites", "statement": "The satellite in plane i, position j is given ascending node i*360/planes degrees and phase j*360/planeSize + i*phases*360/(planes*planeSize) degrees, with the helper's altitude and inclination; hence satellites of one plane are equally spaced and no two satellites of a plane share a phase.", "quantifier": "for every number of planes, plane size, phasing parameter and every satellite (exact arithmetic)", "why_tests_cant": "Accumulated increments over unbounded loops; tests only look at one bird.", "anchors": ["helper/constellation-helper.cc: ConstellationHelper::ConstellationHelper, LaunchSatellite"]}
{"id": "C11", "title": "Inter-satellite links form the torus grid, each link once", "statement": "Installing inter-satellite links on a complete constellation connects exactly the pairs of satellites that are cyclic neighbours in the same plane (consecutive positions) or in the same position of cyclically neighbouring planes; each such unordered pair is connected by exactly one link, and no satellite is linked to itself - also when there are only one or two planes or positions.", "quantifier": "for every number of planes and plane size", "why_tests_cant": "Tests try seven sizes and only count devices.", "anchors": ["helper/isl-helper.cc: ISLHelper::Install(c, chelper)"]}
{"id": "C12", "title": "Number of inter-satellite devices per satellite", "statement": "After installation every satellite has the same number of inter-satellite devices: 0/1/2 in-plane ones for plane size 1/2/>=3 plus 0/1/2 cross-plane ones for 1/2/>=3 planes, and the total number of devices is twice the number of links.", "quantifier": "for every number of planes, plane size and every satellite", "why_tests_cant": "Test suite checks seven (planes, size) combinations.", "anchors": ["helper/isl-helper.cc: ISLHelper::Install(c, chelper), ISLHelper::Install(a, b), InstallPriv"]}
{"id": "C13", "title": "GeoTag hop makes progress along a shortest path", "statement": "For a tag naming an existing satellite other than the current one, the direction chosen for the next hop leads to a satellite whose hop distance on the torus to the destination is exactly one less; the direction is 'to ground' exactly when the current satellite is the destination.", "quantifier": "for every number of planes, plane size, destination and current satellite", "why_tests_cant": "Quadratic in the constellation size, with sign and rounding cases for odd/even sizes.", "anchors": ["fw/geotag-strategy.cpp: GeoTagStrategy::getTarget, afterReceiveInterest"]}
{"id": "C14", "title": "GeoTag routing delivers in the minimum number of hops", "statement": "Following the chosen hops from any satellite reaches the satellite named by the tag after exactly (ring distance of planes + ring distance of positions) hops, which is the minimum possible over the inter-satellite links, and then goes to ground; the walk never loops.", "quantifier": "for every constellation size, source and destination", "why_tests_cant": "Whole-path property over unbounded sizes.", "anchors": ["fw/geotag-strategy.cpp: GeoTagStrategy::getTarget, afterReceiveInterest", "helper/isl-helper.cc: ISLHelper::Install"]}
{"id": "C15", "title": "A GeoTag outside the constellation is refused", "statement": "An Interest whose tag names a non-existing plane or position is refused (NoRoute Nack) by the satellite that handles it. (False in the code: with at least two planes and positions it is always directed to a neighbouring satellite, never to ground and never refused by the direction choice; tags far outside circulate round the ring as long as the strategy alone decides. With a single plane it may even be handed to the wrong ground.)", "quantifier": "for every out-of-range tag and every start satellite", "why_tests_cant": "Non-termination cannot be observed by a finite test.", "anchors": ["fw/geotag-strategy.cpp: GeoTagStrategy::getTarget, afterReceiveInterest"]}
{"id": "C16", "title": "Strategy decision on an incoming Interest", "statement": "A suppressed retransmission causes no action. A tagged Interest arriving at a satellite is sent on exactly one face, and that face is an eligible next hop leading to the satellite (or ground) selected by the tag; if there is none, exactly one NoRoute Nack is returned to the ingress and the pending Interest is rejected. An untagged new Interest goes to the first eligible next hop or is Nacked; an untagged retransmission goes to the first unused eligible next hop, else to the eligible one used earliest, else nowhere. Never more than one copy is sent, and never to an ineligible face.", "quantifier": "for every next-hop list, eligibility, tag, ingress and suppression outcome", "why_tests_cant": "Decision table over arbitrary FIB contents.", "anchors": ["fw/geotag-strategy.cpp: GeoTagStrategy::afterReceiveInterest, getRemoteNetDevice, getSatAddress"]}
{"id": "C17", "title": "Slotted Aloha starts transmissions at the next slot boundary", "statement": "With a positive slot duration a frame handed to the MAC starts at the earliest time not before now that is a multiple of the slot duration: at once when now is a boundary, otherwise after waiting strictly less than one slot. With slot duration zero it starts at once.", "quantifier": "for every current time and slot duration representable in simulator ticks", "why_tests_cant": "The 64.64 fixed-point division decides; only particular values could be tested.", "anchors": ["model/mac/aloha-mac-model.cc: AlohaMacModel::Send, DoSend"]}
{"id": "C18", "title": "Aloha: a frame is delivered iff nothing overlapped it", "statement": "With the default (no capture) threshold, a frame handed to the Aloha receiver is passed up, exactly once and exactly when its reception ends, iff no other frame's reception interval overlaps its own. (False when a frame starts at the very tick another one ends and the simulator processes the start first: then an isolated frame can be lost because of an earlier collision, and a collided frame can be delivered.)", "quantifier": "for every set of frames, start times, durations and powers and every tie order of simultaneous events", "why_tests_cant": "All interleavings of start/end events; the test only compares average throughput.", "anchors": ["model/mac/aloha-mac-model.cc: AlohaMacModel::StartPacketRx, FinishReception"]}
{"id": "C19", "title": "Aloha receiver returns to the idle state", "statement": "Whenever no frame is being received the Aloha receiver carries no memory of earlier collisions: the fate of later frames is the same as with a freshly created receiver.", "quantifier": "for every history of receptions", "why_tests_cant": "Needs all histories.", "anchors": ["model/mac/aloha-mac-model.cc: AlohaMacModel::FinishReception"]}
{"id": "C20", "title": "Capture effect decision", "statement": "With an SIR threshold configured, a frame involved in a collision is delivered iff the ratio of its own power to the sum of the powers of all other frames received so far in the same busy period is at least the threshold (in dB).", "quantifier": "for every set of overlapping frames, powers and threshold (exact arithmetic)", "why_tests_cant": "Real-valued powers and arbitrary overlap patterns.", "anchors": ["model/mac/aloha-mac-model.cc: AlohaMacModel::StartPacketRx, FinishReception"]}
{"id": "C21", "title": "CRDSA places the replicas in distinct slots of the next frame", "statement": "A frame handed to the CRDSA MAC is transmitted exactly as many times as the replica count, in pairwise distinct slots of the frame starting at the next frame boundary (now, if now is a boundary), whatever the random shuffle - provided the replica count does not exceed the slots per frame (otherwise the selection reads outside the slot table).", "quantifier": "for every time, slot duration, slots per frame, replica count and shuffle outcome", "why_tests_cant": "All permutations and times.", "anchors": ["model/mac/crdsa-mac-model.cc: CrdsaMacModel::Send, GetSelectedSlots, SetSlotsPerFrame, StartPacketTx"]}
{"id": "C22", "title": "Replica count follows the configured distribution", "statement": "The number of replicas drawn for uniform sample p is the n whose cumulative-probability interval contains p, never an n of zero probability; when the coefficients are non-negative and sum to 1 and p < 1 a value is always produced.", "quantifier": "for every coefficient vector and every sample in [0,1)", "why_tests_cant": "Continuous sample space.", "anchors": ["model/mac/crdsa-mac-model.h: ReplicasDistroPolynomial::NumReplicasPerPacket"]}
{"id": "C23", "title": "CRDSA delivers a packet at most once", "statement": "Two deliveries of the same packet uid are always more than two frame durations apart; and if all receptions of a uid lie between two instants at most two frame durations apart, at the second of which nothing is being received, the packet is passed up at most once in the whole history, however many replicas are received or recovered.", "quantifier": "for every history of receptions and recoveries", "why_tests_cant": "Unbounded histories, interplay of recovery and expiry.", "anchors": ["model/mac/crdsa-mac-model.cc: CrdsaMacModel::FinishReception, MakeInterferenceCancellation, CleanActiveReceivedPackets"]}
{"id": "C24", "title": "CRDSA interference cancellation recovers exactly the decodable packets", "statement": "When a busy period ends, the packets passed up by interference cancellation are exactly those obtained by the iterative rule 'if all other packets of a recorded collision are known, the remaining one is recovered', carried to its fixed point; each is passed up once, the procedure terminates, and afterwards no recorded collision has exactly one unknown packet.", "quantifier": "for every set of recorded collisions and received packets", "why_tests_cant": "Arbitrary hypergraphs; fixed-point argument.", "anchors": ["model/mac/crdsa-mac-model.cc: CrdsaMacModel::MakeInterferenceCancellation, FinishReception", "model/mac/private/busy-period.h: BusyPeriod::RemoveCollidedPacket"]}
{"id": "C25", "title": "CRDSA cancellation does not use invalidated iterators", "statement": "Interference cancellation never erases through an invalidated iterator. (False: when two recorded collisions become empty in the same pass the second erase uses an iterator invalidated by the first; reachable with three replicas per packet. It is safe when at most one collision empties per pass; in particular when every packet is received at most twice, there is no capture, and frame ends are processed before frame starts of the same tick.)", "quantifier": "for every set of recorded collisions and received packets", "why_tests_cant": "Undefined behaviour; may pass tests by luck.", "anchors": ["model/mac/crdsa-mac-model.cc: CrdsaMacModel::MakeInterferenceCancellation"]}
{"id": "C26", "title": "CRDSA memory is bounded by two frames", "statement": "After every busy-period end, no recorded collision and no received-packet entry older than two frame durations is kept, and none that is more recent is dropped by the clean-up.", "quantifier": "for every history", "why_tests_cant": "Relies on recorded collisions being time-ordered, an invariant over histories.", "anchors": ["model/mac/crdsa-mac-model.cc: CrdsaMacModel::CleanActiveBusyPeriods, CleanActiveReceivedPackets, FinishReception"]}
{"id": "C27", "title": "NoneMacModel is transparent", "statement": "With the pass-through MAC every frame is transmitted at the instant it is handed over, the end-of-transmission notification comes exactly one transmission time later, and every frame that starts being received is passed up exactly once, one transmission time later, regardless of other frames.", "quantifier": "for every schedule of sends and receptions", "why_tests_cant": "All interleavings.", "anchors": ["model/mac/none-mac-model.cc: NoneMacModel::Send, StartPacketRx, FinishReception"]}
{"id": "C28", "title": "Uplink frames go to the addressed satellite only", "statement": "A transmission towards a satellite results in at most one reception event, at the device registered at the plane and position named by the destination address (in debug builds also with the constellation number of the address; release builds ignore that number, so a frame for a foreign constellation reaches the satellite at the same plane and position here), after the propagation delay, carrying sender address, protocol and received power; a frame refused by the success model or with no constellation is reported dropped exactly once and not received; in all cases the reported duration is the transmission time of the frame.", "quantifier": "for every constellation, destination, success model, delay and power", "why_tests_cant": "Arbitrary models and constellations.", "anchors": ["model/ground-sat-channel.cc: GroundSatChannel::Transmit2Sat"]}
{"id": "C29", "title": "A frame for an absent satellite is dropped cleanly", "statement": "A transmission to an address with no satellite is reported as dropped and has no other effect. (False: after reporting the drop the code goes on to use the null device.)", "quantifier": "for every empty position of every constellation", "why_tests_cant": "Null dereference is undefined behaviour.", "anchors": ["model/ground-sat-channel.cc: GroundSatChannel::Transmit2Sat"]}
{"id": "C30", "title": "Downlink broadcast reaches every ground station exactly once", "statement": "A satellite transmission produces, for each attached ground device, exactly one of a drop report or a reception event at that device after its own propagation delay, in attachment order.", "quantifier": "for every list of ground devices and success model", "why_tests_cant": "Arbitrary topologies.", "anchors": ["model/ground-sat-channel.cc: GroundSatChannel::Transmit2Ground, AddGroundDevice"]}
{"id": "C31", "title": "Channel device enumeration", "statement": "For a complete constellation, GetDevice(i) for i < GetNDevices() enumerates all satellites followed by all ground devices, each exactly once; larger i aborts.", "quantifier": "for every channel state and index", "why_tests_cant": "Arbitrary sizes; relies on constellation enumeration.", "anchors": ["model/ground-sat-channel.cc: GroundSatChannel::GetNDevices, GetDevice", "model/constellation.cc: Constellation::Get"]}
{"id": "C32", "title": "Inter-satellite channel connects exactly its two ends", "statement": "Once two devices are attached, a frame sent by either end is either dropped (reported once) or received by the other end only, after the propagation delay; a device never receives its own frame; transmitting before both ends are attached or attaching a third device violates an assertion.", "quantifier": "for every attach/transmit history", "why_tests_cant": "All histories.", "anchors": ["model/sat2sat-channel.cc: Sat2SatChannel::AttachNewSat, TransmitStart, GetDevice"]}
{"id": "C33", "title": "Inter-satellite visibility rule", "statement": "For two satellites on orbits of the same radius (above 80 km altitude), the success model admits a transmission iff the straight segment between them stays at least 80 km above the spherical Earth.", "quantifier": "for all pairs of positions on the orbital sphere", "why_tests_cant": "Continuous geometry.", "anchors": ["model/sat2sat-success-model.cc: Sat2SatSuccessModel::CalcMaxDistance, TramsmitSuccess"]}
{"id": "C34", "title": "Ground station sends accepted packets once, in order, one at a time", "statement": "Every packet for which Send returned true is put on the air exactly once, in acceptance order, with no overlap, each starting no earlier than the end of the previous one, and the station is never idle while packets wait; a packet refused by the queue is reported dropped and never sent. Holds for MACs that transmit a frame exactly once (pass-through, Aloha). (False with CRDSA and two or more replicas: the first end-of-transmission starts the next packet while replicas are pending, and each replica end advances the queue.)", "quantifier": "for every schedule of Send calls and MAC events, every queue capacity", "why_tests_cant": "All interleavings of sends and completions.", "anchors": ["model/ground-sta-net-device.cc: GroundStaNetDevice::Send, TransmitStart, TransmitComplete", "model/mac/aloha-mac-model.cc: AlohaMacModel::Send", "model/mac/none-mac-model.cc: NoneMacModel::Send"]}
{"id": "C35", "title": "Ground station uses the satellite tracked when the packet was accepted", "statement": "Each packet is addressed to the satellite that was tracked, with the protocol number and power given, at the moment Send accepted it, even if the tracked satellite changes while the packet waits.", "quantifier": "for every interleaving of Send, address changes and transmissions", "why_tests_cant": "All interleavings.", "anchors": ["model/ground-sta-net-device.cc: GroundStaNetDevice::Send, TransmitStart, GroundSatTag"]}
{"id": "C36", "title": "Ground station only receives from the tracked satellite", "statement": "A frame arriving at a ground station is passed up exactly once, one transmission time later, iff its source is the satellite tracked when its reception began; frames from other satellites leave no trace.", "quantifier": "for every schedule of arrivals and address changes", "why_tests_cant": "All interleavings.", "anchors": ["model/ground-sta-net-device.cc: GroundStaNetDevice::ReceiveFromSat, ReceiveFromSatFinish, SetRemoteAddress"]}
{"id": "C37", "title": "Tracked-address notifications", "statement": "Observers are notified with (old, new) exactly when the tracked address actually changes; the notifications form a chain from the initial to the current address; a transport created while the device holds its default address always shows the current address in its remote URI.", "quantifier": "for every sequence of SetRemoteAddress calls", "why_tests_cant": "Unbounded sequences.", "anchors": ["model/ground-sta-net-device.cc: GroundStaNetDevice::SetRemoteAddress", "model/ndn/ground-sta-transport.cc: GroundStaTransport::updateRemoteUri"]}
{"id": "C38", "title": "Satellite downlink device sends accepted packets once, in order, one at a time", "statement": "Same as for the ground station, for the satellite's ground-facing device: accepted packets are broadcast exactly once, in order, each with its own protocol number and power, back-to-back without idling while packets wait.", "quantifier": "for every schedule of Send calls and completions, every queue capacity", "why_tests_cant": "All interleavings.", "anchors": ["model/sat2ground-net-device.cc: Sat2GroundNetDevice::Send, TransmitStart, TransmitComplete"]}
{"id": "C39", "title": "Inter-satellite device sends accepted packets once, in order, one at a time", "statement": "Accepted packets are handed to the inter-satellite channel exactly once, in acceptance order, never two at a time, without idling while packets wait.", "quantifier": "for every schedule of Send calls and completions, every queue capacity", "why_tests_cant": "All interleavings.", "anchors": ["model/sat-net-device.cc: SatNetDevice::Send, TransmitStart, TransmitComplete"]}
{"id": "C40", "title": "Inter-satellite device preserves the protocol number", "statement": "Each packet is delivered at the other end with the protocol number it was sent with. (False: a packet that had to wait in the queue is sent with the protocol number of the packet before it.)", "quantifier": "for every schedule of Send calls", "why_tests_cant": "Only visible with mixed protocols under load.", "anchors": ["model/sat-net-device.cc: SatNetDevice::Send, TransmitComplete"]}
{"id": "C41", "title": "Packet tag round-trip", "statement": "The destination address, protocol number and power stored in a packet's tag are read back unchanged, and the serialised form fits in the declared size.", "quantifier": "for every address, protocol number and power bit pattern", "why_tests_cant": "2^128 values.", "anchors": ["model/ground-sta-net-device.cc: GroundSatTag::Serialize, Deserialize, GetSerializedSize", "model/sat2ground-net-device.cc: SatGroundTag"]}
{"id": "C42", "title": "Periodic tracker follows the nearest satellite", "statement": "At every update instant the tracked address becomes that of a nearest satellite; updates happen at time zero and then at offset + k*interval for all k, with the offset inside the first interval; with interval zero nothing ever happens.", "quantifier": "for every interval, random offset and constellation motion", "why_tests_cant": "Infinite time horizon.", "anchors": ["model/ground-node-sat-tracker-periodic.cc: DoInitialize, PeriodicUpdate, UpdateOnce", "model/constellation.cc: Constellation::GetClosest"]}
{"id": "C43", "title": "Elevation tracker picks the longest-lasting visible satellite", "statement": "In a constellation whose every seat is occupied, at each update the tracked satellite is one of those above the minimum elevation with a known setting time, with the maximum remaining visibility among them, and the next update is scheduled exactly when it sets; if there is none the simulation aborts. (With an empty seat the update dereferences a null pointer.)", "quantifier": "for every constellation, elevation map and set of remaining visibility times", "why_tests_cant": "Arbitrary orbital configurations.", "anchors": ["model/ground-node-sat-tracker-elevation.cc: getVisibleSats, Update"]}
{"id": "C44", "title": "A satellite stays on its orbital sphere and within its inclination", "statement": "At all times the satellite's distance to the Earth's centre equals Earth radius plus altitude, and the absolute value of its z-coordinate never exceeds the radius times |sin inclination|.", "quantifier": "for all orbital elements and all times (exact real arithmetic)", "why_tests_cant": "Continuous domain.", "anchors": ["model/orbit/circular-orbit-impl.cc: getCartesianPositionRightAscensionDeclination", "model/circular-orbit.cc: LaunchSat"]}
{"id": "C45", "title": "Orbital motion is uniform and periodic", "statement": "The satellite's inertial position repeats after getOrbitalPeriod, which satisfies Kepler's third law; the angular anomaly wrap-around correction never changes the position and its sanity assertion never fires; two satellites of one plane keep a constant mutual distance 2*r*|sin(phase difference/2)|.", "quantifier": "for all orbital elements and all times (exact real arithmetic)", "why_tests_cant": "Continuous domain, unbounded times.", "anchors": ["model/orbit/circular-orbit-impl.cc: getCartesianPositionRightAscensionDeclination, getN, getOrbitalPeriod"]}
{"id": "C46", "title": "Earth-fixed position", "statement": "The reported position is the inertial position rotated about the z axis by minus the Earth's rotation angle and scaled by (r-9)/r, because the geographic conversion uses a 6371000 m sphere while the model uses 6371009 m; so the height above the ns-3 sphere is the altitude, and distances between simultaneous positions of satellites of equal radius are the inertial ones scaled by the same factor.", "quantifier": "for all orbital elements and times (exact real arithmetic)", "why_tests_cant": "Continuous domain.", "anchors": ["model/circular-orbit.cc: CircularOrbitMobilityModel::DoGetPosition, getRawPosition"]}
{"id": "C47", "title": "Ground distance at a given elevation", "statement": "For a ground point at Earth radius, the distance returned for an elevation e in [-90,90] degrees is exactly the distance at which a satellite of this orbit is seen at elevation e; consequently the satellite is at elevation >= e iff it is at distance <= that value. This holds both for inertial positions with the nominal radius 6371009 m and for reported positions with a ground point on the ns-3 sphere of 6371000 m. (For a ground point at another radius the formula is not exact, because the altitude is always measured from the nominal Earth radius.)", "quantifier": "for all orbit radii, elevations and satellite positions on the orbital sphere (exact real arithmetic)", "why_tests_cant": "Continuous domain; tests check five values to 1 km.", "anchors": ["model/orbit/circular-orbit-impl.cc: getGroundDistanceAtElevation", "model/circular-orbit.cc: getSatElevation", "model/ground-sat-success-elevation.cc: TramsmitSuccess"]}
{"id": "C48", "title": "Elevation is well defined", "statement": "The elevation of a satellite above a ground point is within [-90, 90] degrees, equals 90 degrees iff the satellite is on the outward radial through the ground point, is non-negative iff the satellite is on or above the local horizontal plane, and is unchanged by rotating both points about the Earth's axis.", "quantifier": "for all pairs of distinct points with the ground point not at the Earth's centre", "why_tests_cant": "Continuous domain.", "anchors": ["model/circular-orbit.cc: CircularOrbitMobilityModel::getSatElevation"]}
{"id": "C49", "title": "Distance success model is a symmetric threshold", "statement": "A transmission is admitted iff the distance between the nodes is at most MaxDistance; the answer does not depend on direction, and raising MaxDistance never turns success into failure.", "quantifier": "for all node positions and thresholds", "why_tests_cant": "Continuous domain.", "anchors": ["model/ground-sat-success-distance.cc: GroundSatSuccessDistance::TramsmitSuccess"]}
{"id": "C50", "title": "Elevation success model recognises the satellite end", "statement": "The elevation rule gives the same answer whichever of the two nodes is passed as source, admits iff the satellite's elevation seen from the ground node is at least MinElevation, and aborts when neither node is a satellite or the ground node has no position.", "quantifier": "for all node pairs and positions", "why_tests_cant": "All argument orders and node kinds.", "anchors": ["model/ground-sat-success-elevation.cc: GroundSatSuccessElevation::TramsmitSuccess"]}
{"id": "C51", "title": "Next-crossing search returns an accepted crossing inside the window", "statement": "Whatever the root finder does, a crossing time returned by the search was accepted by the check that the satellite is closer than the target within one second of it, lies in the searched interval, and when the search of the earlier part also succeeds the earlier crossing is returned; getNextTimeAtDistance returns the result of the first window (advancing by half periods) that contains one.", "quantifier": "for every behaviour of the root finder returning points inside its bracket", "why_tests_cant": "The root finder is a black box with arbitrary behaviour.", "anchors": ["model/orbit/search/distancesolver.cc: findNextCross, DistanceSolver::solve", "model/orbit/circular-orbit-impl.cc: getNextTimeAtDistance"]}
{"id": "C52", "title": "LoRa frame size reproduces the LoRa time on air", "statement": "For documented LoRa parameters that the parameter types can hold, sending the computed payload plus header at the nominal LoRa bit rate takes the LoRa time on air, up to half a byte time of rounding; the link rate is that bit rate truncated to whole bits per second (at least 11 bit/s), so that on the link the time differs further by at most the relative error of one bit per second. The generated rate includes only the payload share and the byte budget is frames times payload. Excluded corners, each with the proved wrong result: an empty payload at spreading factor 12 wraps the unsigned symbol count, a header longer than the frame converts a negative number to unsigned, and a bandwidth of 500 kHz does not fit its 8-bit type so that the link has less than half its rate.", "quantifier": "for all spreading factors, coding rates, bandwidths, preamble, header and payload sizes", "why_tests_cant": "Large parameter space including wrap-around corners.", "anchors": ["helper/lora-helper.cc: LoraHelper::LoraHelper, GetLoraLinkRate"]}
{"id": "C53", "title": "Poisson source has the requested mean rate", "statement": "The mean on+off cycle of the generated source equals the time one packet with its header takes at the requested rate, so that one packet per cycle yields the requested mean rate; the mean off time is positive whenever the requested rate is below the maximum rate by the header proportion.", "quantifier": "for all positive rates and all packet and header sizes whose sum fits 32 bits (exact arithmetic)", "why_tests_cant": "Continuous parameters.", "anchors": ["helper/poisson-helper.cc: PoissonHelper::PoissonHelper"]}
{"id": "C54", "title": "Node classification during installation", "statement": "Installing devices on a list of distinct nodes, with at least as many seats as nodes without position, gives every node without position a satellite device, launched in list order and holding the address returned by the launch, and every node with a position a ground device attached to the channel; a satellite node is found in the constellation under its own device address. A satellite node installed twice becomes a ground station as well; a ground node installed twice aborts.", "quantifier": "for every list of distinct nodes, every mix of satellites and ground nodes, every constellation whose numbers fit 16 bits", "why_tests_cant": "Arbitrary node lists.", "anchors": ["helper/icarus-helper.cc: IcarusHelper::Install, InstallPriv, CreateDeviceForNode"]}
{"id": "C55", "title": "End-to-end uplink delivery", "statement": "With the pass-through MAC, a packet accepted by a ground station while a satellite is tracked is passed up at that satellite exactly once, at (start of transmission + propagation delay + transmission time), provided the success model admits it; and satellites pass up nothing else.", "quantifier": "for every schedule of Sends, tracked satellites and channel behaviours", "why_tests_cant": "Composition of three state machines under all interleavings.", "anchors": ["model/ground-sta-net-device.cc: GroundStaNetDevice::Send", "model/ground-sat-channel.cc: GroundSatChannel::Transmit2Sat", "model/sat2ground-net-device.cc: Sat2GroundNetDevice::ReceiveFromGround"]}
{"id": "C56", "title": "CRDSA as a whole decodes exactly the peelable packets", "statement": "In every history spanning less than two frame durations without capture, the packets CRDSA has passed up are exactly those obtained by peeling from the packets that arrived alone at least once, over all collisions of the history (busy periods with at least two frames), and each is passed up once - whatever the replica placement, and although the code cancels interference incrementally, discarding known packets as it goes.", "quantifier": "for every sequence of frame starts and ends", "why_tests_cant": "Relates the incremental, stateful cancellation to a fixed point over the whole history; tests sample a handful of collision patterns.", "anchors": ["model/mac/crdsa-mac-model.cc: CrdsaMacModel::StartPacketRx, FinishReception, MakeInterferenceCancellation", "model/mac/private/busy-period.h"]}
{"id": "C57", "title": "The crossing search observes the ground node where it is", "statement": "When searching for the next time a satellite reaches an elevation, the observer that stands for the ground node is, at all times, the ground node's position turned with the Earth. (False off the equator: the conversion yields the geodetic latitude on the WGS84 ellipsoid while the observer is placed by geocentric latitude, so the observer is strictly further from the equatorial plane than the node; but it is never 43.5 km or more from it.) The iterative conversion always terminates.", "quantifier": "for every ground position more than 100 km from the Earth's axis (exact real arithmetic)", "why_tests_cant": "Continuous domain; termination of an iterative loop.", "anchors": ["model/circular-orbit.cc: CartesianToGeographicCoordinates, CircularOrbitMobilityModel::tryGetNextTimeAtElevation", "model/orbit/search/distancesolver.cc: GroundObserver"]}
{"id": "C58", "title": "End-to-end uplink delivery with Aloha receivers", "statement": "With Aloha receivers at the default threshold, the satellites hear exactly the frames that the stations put on the air and the success model lets through, and each satellite passes up exactly those that overlap no other frame heard by it, each once, at the end of its reception. (False when a frame starts at the very instant another one ends, see C18; proved for all other executions, and in C80 for the event order of ns-3 and frames longer than the delays.)", "quantifier": "for every number of stations and satellites and every schedule of Sends, tracked satellites and channel behaviours", "why_tests_cant": "Composition of queues, channel and colliding receivers under all interleavings.", "anchors": ["model/ground-sta-net-device.cc: GroundStaNetDevice::Send", "model/ground-sat-channel.cc: GroundSatChannel::Transmit2Sat", "model/mac/aloha-mac-model.cc: AlohaMacModel::StartPacketRx, FinishReception"]}
{"id": "C59", "title": "End-to-end downlink delivery", "statement": "With any number of satellites and stations in one simulator, every frame that a satellite puts on the air is heard by every attached station for which the success model lets it through, at the end of its propagation delay, and each station passes up exactly those frames that come from the satellite it tracks at the instant of arrival: each once, unchanged, at the end of its reception, with the sender's address and protocol number. All other frames are ignored by the station, and refused ones are reported once per station by the channel's drop trace. No execution gets stuck or fails. (For stations that do not change the tracked satellite at the very instant a frame arrives, and channels to which no station is attached twice.)", "quantifier": "for every number of stations and satellites, every schedule of Sends, power changes and changes of tracked satellite, and every time-dependent delay, power and success model that always yields a value", "why_tests_cant": "Composition of queues, broadcast channel and filtering receivers under all interleavings.", "anchors": ["model/sat2ground-net-device.cc: Sat2GroundNetDevice::Send, TransmitStart, TransmitComplete", "model/ground-sat-channel.cc: GroundSatChannel::Transmit2Ground", "model/ground-sta-net-device.cc: GroundStaNetDevice::ReceiveFromSat, ReceiveFromSatFinish, SetRemoteAddress"]}
{"id": "C60", "title": "End-to-end delivery on inter-satellite links", "statement": "The devices and channels that the link helper makes for a grid of satellites are wired in pairs on neighbouring satellites, one device per satellite and neighbour. In every execution, each device passes up exactly the packets that the device at the other end of its link accepted and the success model let through: each once, unchanged, at start of transmission plus delay plus transmission time, and nothing from any other device; refused frames are reported once by the drop trace. If later frames also end later at the other end, packets are passed up in the order of acceptance; with a shrinking delay a packet may overtake the one before it. No execution gets stuck or fails.", "quantifier": "for every number of planes and satellites per plane, every schedule of Sends on all devices, every queue, and every time-dependent delay and success model that always yields a value", "why_tests_cant": "Composition of all queues and channels of a grid of any size under all interleavings.", "anchors": ["helper/isl-helper.cc: ISLHelper::Install, InstallPriv", "model/sat-net-device.cc: SatNetDevice::Send, TransmitStart, TransmitComplete, Receive, ReceiveFinish", "model/sat2sat-channel.cc: Sat2SatChannel::AttachNewSat, TransmitStart"]}
{"id": "C61", "title": "Transports hand packets between NFD and their own device, and their references outlive them", "statement": "A ground-station or satellite transport receives the NDN packets its own device passes up from its creation on, each exactly once and in order, and nothing of other devices or protocols; what NFD sends on it before closing goes to its own device in order, once, with the NDN protocol number, and nothing after closing. Closing does not stop reception. After a transport has been destroyed, the next NDN frame of its device, and for a ground station the next change of the tracked satellite, calls the destroyed object (undefined behaviour); without destroyed transports of the device neither does. A transport for a device of another type dereferences a null pointer.", "quantifier": "for all nodes, devices and their types, initial addresses, histories of creating, closing and destroying faces, sending, frames and tracking changes, and both byte orders", "why_tests_cant": "The dangling handler and signal connection only show when a face is removed while its device keeps working; the histories are unbounded and undefined behaviour need not crash a test.", "anchors": ["model/ndn/ground-sta-transport.cc:36-160", "model/ndn/sat2ground-transport.cc:40-144", "model/ground-sta-net-device.cc:235-311", "model/sat2ground-net-device.cc:205-223"]}
{"id": "C62", "title": "Send-queue capacity told to NFD", "statement": "For a queue limited in bytes NFD is told the limit. For a queue limited to v packets it is told 1500*v bytes if v < 2863312, and otherwise the smaller value 1500*v mod 2^32, which is 0 for 2^30 packets; while it does not wrap, the contents of the queue stay within the capacity told if no packet exceeds 1500 bytes, and a full queue of 1500-byte packets exceeds it exactly when it has wrapped. A device without a queue makes the constructor dereference a null pointer.", "quantifier": "for all queue limits (32-bit values), both units, and all queue contents", "why_tests_cant": "The wrap-around starts at 2863312 packets, beyond any queue a test would configure.", "anchors": ["model/ndn/ground-sta-transport.cc:52-104", "model/ndn/sat2ground-transport.cc:56-104"]}
{"id": "C63", "title": "GeoTag forwarding on the network that the helpers build", "statement": "Install devices on distinct nodes of which exactly n*s have no position, install the inter-satellite links on n*s of those, give every node default routes and the GeoTag strategy, and let the last node have a position. Then building succeeds, and an Interest tagged with any satellite t that enters from the ground at any satellite a is carried, by the strategy code run at each node it reaches, over exactly torusDist(a,t) links to t and there to the ground, whatever the order of next hops in the FIBs. A ground station sends new Interests of its applications out on its only device, and also sends a new Interest that came in on this device out on it again. If the last node is a satellite, the strategy dereferences null at every node.", "quantifier": "for all node lists, positions, constellation sizes that fit 16 bits, satellites a and t, FIB orders, PIT contents, builds and byte orders", "why_tests_cant": "It composes the installation helpers, addresses, link grid, face construction and strategy for every constellation size; a test runs one scenario.", "anchors": ["helper/icarus-helper.cc:239-312", "helper/isl-helper.cc:125-238", "fw/geotag-strategy.cpp:59-351", "examples/ground2groundping.cc:110-135"]}
{"id": "C64", "title": "Face URIs and the remote device of an inter-satellite face", "statement": "While fewer than 2^48 MAC addresses are given out, two ground devices with the same local face URI are the same device. The inter-satellite callback picks the other device of the link if the two ends are on different nodes, and device 1 for both ends otherwise. On the network that the helpers build the remote device is always the other end, every satellite's ground face has local URI netdev://, and every inter-satellite face has the broadcast URI as both local and remote URI, so that URIs identify neither satellites nor links.", "quantifier": "for all node lists, positions, constellation sizes, links, devices and MAC allocations below 2^48", "why_tests_cant": "Uniqueness ranges over all 2^48 addresses and all networks.", "anchors": ["helper/icarus-helper.cc:487-553", "helper/isl-helper.cc:398-449"]}
{"id": "C65", "title": "Every frame leaves with the tag of its own Send", "statement": "The sending devices keep destination, protocol number and power of a waiting packet in a packet tag, not in the queue. If a packet is offered only while the device does not use it (and, in debug builds, not after a refusal), as callers that make a new packet for each Send do, then no assertion or null dereference occurs, the ground device behaves as the model with one tag per queue entry, and every frame goes on the air with the values of the last Send of its packet. In debug builds a refused packet that is offered again always fails an assertion. Without the condition a packet that is queued twice goes out with the values of its two calls swapped.", "quantifier": "for all MACs, queue policies, call sequences, packets, remotes, powers and builds", "why_tests_cant": "Tags are shared by all copies of a packet pointer; whether one is overwritten depends on the order of sends, refusals and replica events, which a test fixes.", "anchors": ["model/ground-sta-net-device.cc:361-431", "model/sat2ground-net-device.cc:302-370"]}
{"id": "C66", "title": "Transmission trace sources report exactly what happened", "statement": "On all three devices MacTx reports each Send once in order, MacTxDrop a subsequence of these, Sniffer and PhyTxBegin report exactly the frames given to the channel in order, PhyTxEnd reports each of them once one transmission time later (or it is still scheduled), and reports come in time order. When no event is left every packet offered was either reported dropped or handed on, and every transmission planned for it was reported begun and ended.", "quantifier": "for all call sequences, queue policies, packet lengths, MACs that send each frame at least once, and builds", "why_tests_cant": "It is an invariant over unbounded interleavings of calls and scheduled events.", "anchors": ["model/ground-sta-net-device.cc:361-431", "model/sat2ground-net-device.cc:302-370", "model/sat-net-device.cc:147-174", "model/sat-net-device.cc:372-396"]}
{"id": "C67", "title": "Geometry and availability of the inter-satellite links", "statement": "In the constellation that the helper launches, neighbours of one plane always stay 2(r-9)|sin(pi/s)| apart and their link is either up for ever or down for ever (at 250 km: up iff the plane has at least 14 satellites). The squared distance of two satellites of different planes is a constant plus a cosine of twice the mean motion times time, so their link is up for ever iff it is up at the greatest distance and down for ever iff it is down at the least, both given in closed form. Links between consecutive planes all move alike up to a shift in time; the link across the seam between last and first plane moves like a pair that is n_phases positions apart, hence like the others if n_phases is a multiple of the plane size, and not in general. In examples/isl-grid.cc links between consecutive planes are never up; in examples/ground2groundping.cc they are sometimes down while those across the seam are always up.", "quantifier": "for all constellation sizes, phases, inclinations, altitudes, satellites and times", "why_tests_cant": "It quantifies over all times and constellations; a simulation samples some transmissions.", "anchors": ["helper/constellation-helper.cc:52-109", "helper/isl-helper.cc:125-193", "model/circular-orbit.cc:143-205", "model/orbit/circular-orbit-impl.cc:43-103", "model/sat2sat-success-model.cc:68-93", "examples/isl-grid.cc:78-79", "examples/ground2groundping.cc:109-110"]}
{"id": "C68", "title": "Slotted Aloha: collisions are exactly the slots shared by two frames", "statement": "When all stations use the Aloha MAC with the same slot duration, and every frame is longer than the spread of the propagation delays to a satellite and shorter than the slot minus this spread, each satellite with an Aloha receiver at the default threshold passes up exactly those frames reaching it that were the only ones, of all frames reaching it, sent in their slot; each once, at the end of its reception. (The strict bound matters as long as simultaneous events may run in any order: if frames fill their slots exactly, a frame alone in its slot can then be lost after a collision in the slot before. C80 settles the order that ns-3 uses.)", "quantifier": "for every number of stations and satellites, every slot duration, and every schedule of Sends, tracked satellites, delays and channel behaviours", "why_tests_cant": "Composition of station queues, slot alignment, propagation delays and receiver state over all interleavings; the tests send single frames.", "anchors": ["model/mac/aloha-mac-model.cc: AlohaMacModel::Send, DoSend, StartPacketRx, FinishReception", "model/ground-sta-net-device.cc: GroundStaNetDevice::TransmitStart", "model/ground-sat-channel.cc: GroundSatChannel::Transmit2Sat"]}
{"id": "C69", "title": "CRDSA receiver in the long run", "statement": "A CRDSA receiver that is not receiving anything treats packets it has not seen before exactly as a new receiver would: what it received, lost or left undecoded earlier changes neither which packets are passed up, nor when, nor whether undefined behaviour occurs. Hence, without capture, in every history that falls into rounds of at most two frame durations, each over before the next begins and with packets of its own, the packets passed up are exactly those that peeling recovers within their round, each once; with at most two replicas per packet such a history never ends in undefined behaviour.", "quantifier": "for all histories of any length, numbers of rounds and replicas, overlaps and frame durations", "why_tests_cant": "The tests run one frame at a time on a new receiver; left-over state of earlier frames occurs only in long histories, of which there are infinitely many.", "anchors": ["model/mac/crdsa-mac-model.cc: CrdsaMacModel::StartPacketRx, FinishReception, CleanActiveBusyPeriods, CleanActiveReceivedPackets, MakeInterferenceCancellation"]}
{"id": "C70", "title": "CRDSA end to end: a satellite recovers exactly the decodable packets", "statement": "When all stations use the CRDSA MAC with the same slots and frames and at most two replicas per packet, collisions are always lost, and every frame is longer than the spread of the propagation delays to a satellite and shorter than the slot minus this spread, no execution of the network ends in undefined behaviour, and once nothing is scheduled any more each satellite has passed up exactly the packets that slot-by-slot decoding recovers: a packet is recovered if it has a replica in some slot in which all other packets reaching the satellite are recovered already. Each is passed up once. With at least one replica, every packet accepted by a station's queue has been handed to its MAC by then.", "quantifier": "for every number of stations, satellites, slots per frame, every choice of replica slots, every schedule of Sends and tracked satellites, every interleaving of simultaneous events", "why_tests_cant": "Composition of station queues, random slot choices, delays and iterative cancellation over histories of unbounded length; the tests feed a single receiver with a few frames.", "anchors": ["model/mac/crdsa-mac-model.cc: CrdsaMacModel::Send, StartPacketRx, FinishReception, MakeInterferenceCancellation", "model/ground-sta-net-device.cc: GroundStaNetDevice::Send, TransmitStart, TransmitComplete", "model/ground-sat-channel.cc: GroundSatChannel::Transmit2Sat", "model/sat2ground-net-device.cc: Sat2GroundNetDevice::ReceiveFromGround"]}
{"id": "C71", "title": "A visible low-orbit satellite sets within half an orbit and the elevation tracker hands over in time", "statement": "Take a ground point at distance R >= 6371000 m from the centre of the Earth and satellites on circular orbits up to 10000 km of altitude, positions and elevations as the code computes them (turning Earth, reported radius). (a) The elevation is at least e (0 <= e <= 90 degrees) exactly if the angle at the Earth's centre is at most arccos(R cos e / rho) - e. (b) A satellite seen at elevation e or more at two moments less than half an orbit apart has covered at most twice that angle relative to the turning Earth. (c) Every satellite above e sinks to e within that time, which is shorter than half an orbit by more than a second, and by more than 900 seconds up to 2000 km of altitude. (d) Hence, for a search that reports setting times at most one second late (900 seconds up to 2000 km of altitude), the debug assertion of getVisibleSats never fails, executions of the elevation tracker do not fail while some satellite is visible and found, and between two updates the tracked satellite is above the minimum elevation (up to the search error). (e) Without the altitude limit (c) is false: on the geostationary orbit a satellite stays in the zenith. (f) If all visible satellites are reported to set at the present nanosecond the tracker updates for ever at a standing clock; with a perfect search this happens when the only visible satellite sets in the middle of a nanosecond.", "quantifier": "all orbits up to 10000 km of altitude, all ground points outside the 6371 km sphere, all elevations from 0 to 90 degrees, all times, all executions of the tracker, all views within the stated error", "why_tests_cant": "Tests sample a few satellites and moments; the bound on the length of every pass and the absence of assertion failures for every constellation need a geometric argument. The standing clock shows only for unlucky rounding.", "anchors": ["model/ground-node-sat-tracker-elevation.cc:102-182", "model/circular-orbit.cc:226-254", "model/orbit/circular-orbit-impl.cc:150-157"]}
{"id": "C72", "title": "Configuration of the helpers", "statement": "After any sequence of setter calls, each object made by IcarusHelper (queue, channel, devices, success model, MAC, tracker, propagation models) has the class selected last for its kind, and each of its attributes has the value given last for that attribute, or else the initial value; calls for one kind never affect another. Satellites and ground stations get the same MAC with the same attributes. Selecting a class again does not restore initial values. SetDeviceAttribute succeeds exactly for attributes and values that both kinds of devices accept; RemoteAddress, MacModelTx and MacModelRx always end the program. A class of the wrong kind gives devices without MAC. After ISLHelper::SetSuccessModel no link ever has a success model. Promiscuous captures never record anything; the others record Sniffer for exactly the helper's own devices.", "quantifier": "all registries of classes containing those of the repository, all attribute values and checkers, all sequences of setter calls of any length, debug and optimised builds", "why_tests_cant": "Configurations are arbitrary sequences of calls over arbitrary classes and values; the defects show only in calls that no test or example makes.", "anchors": ["helper/icarus-helper.cc:55-178", "helper/icarus-helper.cc:220-357", "helper/isl-helper.cc:49-123", "helper/isl-helper.cc:204-279"]}
{"id": "C73", "title": "What travels through the network", "statement": "With ground stations, satellites and inter-satellite links in one simulation and arbitrary programs on the nodes: each part behaves as it does alone; nothing fails if the satellites' receivers do not; both sides of a station always use the same tracked satellite, the one set last. Whenever a node is passed a packet, some node sent that packet without having received it, and the packet came from there over a chain of links (station to the launched satellite it tracked when sending, satellite to an attached station that tracks it, satellite to the other end of an inter-satellite link), each of which the success model let it through, every node on the way having received the packet before sending it on. The journey takes at least the sum of the propagation and transmission times of its links. Between two ground stations it takes at least two propagation delays.", "quantifier": "all networks of any size with None, Aloha or CRDSA receivers (and any receiver that only passes up what it hears), any station MAC, all delays, powers and success models, all interleavings of calls and events, all histories of any length", "why_tests_cant": "The claim is about every packet in every interleaving of uplink, downlink and inter-satellite traffic with arbitrary forwarding; simulations show single scenarios with well-behaved forwarding.", "anchors": ["model/ground-sta-net-device.cc:218-251", "model/ground-sta-net-device.cc:301-311", "model/ground-sta-net-device.cc:361-431", "model/sat2ground-net-device.cc:193-223", "model/sat2ground-net-device.cc:302-371", "model/sat-net-device.cc:147-174", "model/sat-net-device.cc:207-236", "model/sat-net-device.cc:372-396", "model/ground-sat-channel.cc:94-168", "model/sat2sat-channel.cc:109-140"]}
{"id": "C74", "title": "Ways through the inter-satellite grid", "statement": "In the links that ISLHelper makes for n planes of s satellites, the smallest number of links on a way between two satellites is the number of planes between them plus the number of places between them, each counted the shorter way round; so every satellite is reachable, and the largest distance is n/2 + s/2 (rounded down separately), which is attained. The loss of any one satellite leaves the others joined. The loss of any one link leaves all satellites joined, unless there are only two.", "quantifier": "all numbers of planes and satellites per plane, all pairs of positions, all lost satellites and links", "why_tests_cant": "Tests can measure paths in grids of given sizes; minimality over all ways and robustness in all grid sizes, including the special cases of one and two planes, need a proof.", "anchors": ["helper/isl-helper.cc:125-193"]}
{"id": "C75", "title": "Time a packet needs between ground stations", "statement": "If satellites only forward packets and ground stations do not forward any, then a packet that a station is passed was sent by a station at least two ground-satellite propagation delays plus d inter-satellite propagation delays before, where d is the grid distance (planes plus places, the shorter way round) between the satellite that the sender tracked when sending and a satellite that the receiver has tracked.", "quantifier": "all networks on grids of any size, all forwarding behaviours of the satellites, all delays bounded below by mg (ground-satellite) and mi (inter-satellite), all executions, None, Aloha and CRDSA receivers", "why_tests_cant": "A lower bound over all forwarding strategies and interleavings; a simulation shows the latency of one strategy.", "anchors": ["helper/isl-helper.cc:125-238", "model/sat-net-device.cc:147-174", "model/ground-sat-channel.cc:94-168", "model/sat2sat-channel.cc:109-140"]}
{"id": "C76", "title": "Reception trace sources and callbacks report exactly what is received; ASCII trace files are written from exactly four sources", "statement": "For every device and every sequence of arrivals: PhyRxBegin is called once for each frame the device starts to receive (ground station: frames of the satellite tracked at their arrival; inter-satellite device: all frames; satellite: all frames from the ground, also those lost later), at its arrival. For each frame received completely the calls PhyRxEnd, Sniffer, MacRx, the promiscuous callback if one is set, and the receive callback are made, in this order, at the end of the reception, with no other calls but beginnings in between, and for nothing else; a satellite makes them for exactly what its MAC delivers, in that order. No PhyRxEnd comes without an earlier PhyRxBegin of the same packet. A device without a receive callback calls a null callback at the end of the first reception. EnableAscii of both helpers writes from exactly MacRx (r) of the device and Enqueue (+), Dequeue (-), Drop (d) of its queue, whether a stream is given or not, and leaves other devices alone; a device without a queue makes it dereference a null pointer (file) or stop or write receptions only (stream).", "quantifier": "all sequences of arrivals, durations, changes of the tracked satellite, MAC models, callback settings, build modes, queue classes", "why_tests_cant": "Tests see a few runs; a trace source missed or called twice for some interleaving of receptions, or a capture differing from what is received, shows only in the runs that happen to contain it.", "anchors": ["model/ground-sta-net-device.cc:218-251", "model/sat2ground-net-device.cc:193-223", "model/sat-net-device.cc:207-236", "helper/icarus-helper.cc:359-478", "helper/isl-helper.cc:281-396"]}
{"id": "C77", "title": "Throughput of slotted and pure Aloha", "statement": "N stations hand one frame each to their Aloha MAC at ticks chosen freely from a window, and one receiver with the default threshold hears them. Slotted (window of M slots, frames longer than the spread of the delays and leaving more than the spread of the slot empty, any order of simultaneous events): added over all (M*slot)^N choices the receiver passes up exactly N * (M*slot) * (M*slot - slot)^(N-1) frames, i.e. N * (1 - 1/M)^(N-1) on average; with M growing and N/M tending to g the frames passed up per slot tend to g * exp(-g). Pure (window of L ticks, equal delays, frames of len ticks, ends before starts of the same tick): the total is N times the sum over the ticks x of (number of ticks at which a frame does not disturb one sent at x)^(N-1), which lies between N*L*(L-2*len+1)^(N-1) and that plus N*2*len*L^(N-1); with N and len growing and N*len/L tending to g the frames passed up per duration of a frame tend to g * exp(-2*g). The maxima are 1/e and 1/(2e).", "quantifier": "all numbers of stations, slots and ticks, all slot durations below 2^64 ticks, frame lengths, delays and powers, all choices of hand-over ticks, all complete executions of the receiver; limits over all sequences of such settings", "why_tests_cant": "The test suite samples one random run per load and compares it with the same formulas up to 0.01; the exact count over all choices and the limits cannot be enumerated.", "anchors": ["model/mac/aloha-mac-model.cc:57-168", "test/icarus-mac-model-test-suite.cc:156-185", "test/icarus-mac-model-test-suite.cc:280-312"]}
{"id": "C78", "title": "All forms of Install, called in any sequence", "statement": "IcarusHelper::Install is called any number of times, in any of its forms: one node or a container, given by pointer or by name, on a channel given by pointer or name or on a new one. If nothing fails, nodes, devices, addresses and the constellation are as after a single Install with all the nodes in order, every device has the channel of its call, and the ground devices of a channel are the ground devices installed on it, in order. A channel knows the constellation exactly if some call with a container used it. Through a channel only used for single nodes everything sent to a satellite is dropped (and GetNDevices dereferences a null pointer), although the devices are the same as with a container; through a channel used for a container, before or after, every satellite ever installed is reached, also those of other channels. With distinct nodes and enough seats the calls succeed exactly if every node exists, every container call has a channel and every node with a position has a channel (a satellite does not need one).", "quantifier": "all sequences of calls, all nodes, names, channels and positions, both byte orders, debug and release builds; all frames, addresses, delay and loss models for the transmissions", "why_tests_cant": "The tests only use the container form on a new channel, once per simulation.", "anchors": ["helper/icarus-helper.cc:180-312", "model/ground-sat-channel.cc:73-137", "model/ground-sat-channel.cc:193-199", "model/ground-sta-net-device.cc:206-216", "model/sat2ground-net-device.cc:182-191"]}
{"id": "C79", "title": "Uniform slot choice and throughput of CRDSA", "statement": "If std::shuffle gives every order of the slot table equally often, GetSelectedSlots selects every sequence of k different slots equally often: (n-k)! of the n! orders. N stations then send two replicas of one packet each in a frame of n slots to a CRDSA receiver (delays with a small spread, collisions always lost, any order of simultaneous events). Added over all (n!)^N choices the receiver passes up at least the packets with a slot for themselves and no packet sent in the same two slots as another one: the mean is between N*(2*(1-2/n)^(N-1) - ((1-2/n)*(1-2/(n-1)))^(N-1)) and N*(1-2/(n*(n-1)))^(N-1), and for two stations exactly given by the latter. With n growing and N/n tending to g at least g*(2*exp(-2g) - exp(-4g)) packets per slot are passed up in the limit, which is more than the g*exp(-g) of slotted Aloha (C77) for all loads below the logarithm of the golden ratio, 0.48 packets per slot.", "quantifier": "all numbers of stations, slots and replicas selected, slot durations with slot*n below 2^63 ticks, packet lengths, hand-over times before the frame, delays and powers, all choices of slot orders, all complete executions of the receiver; limits over all sequences of such settings", "why_tests_cant": "The tests run one random simulation per load; (n!)^N choices cannot be enumerated.", "anchors": ["model/mac/crdsa-mac-model.cc:137-190", "model/mac/crdsa-mac-model.cc:210-278", "model/mac/crdsa-mac-model.cc:319-424"]}
{"id": "C80", "title": "In the event order of ns-3, frames may follow each other without a gap", "statement": "ns-3 runs events of the same time in the order in which they were scheduled: the end of a reception was scheduled when the reception started, the arrival of a frame when it was sent. So if every frame lasts longer than the propagation delays to the satellite, every receiver handles the end of a reception before a frame that starts at the same instant, and the exceptions of C18, C58, C68 and C70 disappear: each satellite with Aloha receivers passes up exactly the frames that overlap no other; with slotted Aloha exactly those alone in their slot, and with CRDSA (at most two replicas) exactly the decodable packets and nothing fails, also if frames fill all that the spread of the delays leaves of a slot. If frames may be shorter than the delays this is false: ns-3 then runs the arrival first, and a frame alone in its slot is lost after a collision in the slot before. Executions in this order never get stuck.", "quantifier": "for every number of stations and satellites, every slot duration, every schedule of Sends and tracked satellites, all delays and channel behaviours, every order of events that agrees with the times at which they were scheduled", "why_tests_cant": "Tests use frames and delays that do not coincide to the tick; which of two simultaneous events runs first depends on when each was scheduled, over all pairs of stations.", "anchors": ["model/ground-sat-channel.cc:131-133", "model/mac/aloha-mac-model.cc:98-168", "model/mac/crdsa-mac-model.cc:319-424", "model/mac/none-mac-model.cc:62-77"]}
{"id": "C81", "title": "What the search for setting times finds with Brent's method", "statement": "The search uses the Brent solver of the GNU Scientific Library. In exact arithmetic that method never divides by zero, never leaves its interval, and keeps a change of sign once it has one, so it meets the contract C51 asks of the root finder. For a satellite that is visible now, sets once and rises at most once in the coming period, the search always answers, and (if the solver converges within its thousand iterations) never later than the setting, up to one millionth of the time, even when the interval searched has no change of sign at its ends. But the answer may be early: a receding satellite that does not rise again within the period is reported to set one second before it does, because the repeated search up to a second before the first answer has no crossing, ends at the end of its interval and is accepted; and a satellite that has just risen is reported to set at once. Passes over an observer on the equator are of this kind.", "quantifier": "for every satellite, observer and target, every time up to 10^6 seconds, every pass with the stated pattern", "why_tests_cant": "The unit tests check a few passes against tolerances of many seconds; an answer one second early lies within them, and no test looks at the intervals the solver goes through.", "anchors": ["model/orbit/search/distancesolver.cc:94-185", "model/orbit/search/distancesolver.cc:200-223"]}
{"id": "C82", "title": "A pass is one uninterrupted interval shorter than half an orbit, and the search never reports its end late", "statement": "For every circular orbit, inclined in any way, and every observer on the rotating Earth, if the distance is within reach (which holds for the distance of every elevation from the horizon to the zenith, for orbits up to 7000 km high and observers near sea level), then: between two moments at most half an orbit apart at which the satellite is not further than the distance it is closer all the time; half an orbit after such a moment it is further; and a satellite that is closer leaves the distance within half an orbit and then stays further for at least another half orbit. Consequently, whatever time findNextCross answers for a satellite that is closer now is not in the past and at most a millionth of the time later than the end of this pass, provided the satellite is also closer one period from now or not at all in the second half of that period, or it is now no further than a second before the first answer.", "quantifier": "all circular orbits, observers, distances within reach, times and answers of the search", "why_tests_cant": "Whether a visibility interval has a gap, and what the root finder answers when the interval searched contains several crossings, depends on continuous parameters of orbit and observer; tests check a handful of passes.", "anchors": ["model/orbit/search/distancesolver.cc:145-223", "model/orbit/circular-orbit-impl.cc:84-132"]}
{"id": "C83", "title": "Queries of a satellite's mobility model: defined after launch, blocking and trying agree, and unreachable latitudes never end the wait", "statement": "Before LaunchSat every query of CircularOrbitMobilityModel aborts in every build, except that getOrbitalPeriod dereferences a null pointer and the velocity is zero; after a launch, radius, period (Kepler) and position are defined and only the last launch counts. A ground node without a constant position fails an assertion in debug builds and is a null dereference in others. The elevation queries are the distance queries for the distance that belongs to the elevation. getNextTimeAtDistance returns r exactly if tryGetNextTimeAtDistance, asked at now, now + T/2, now + T, ... answers r first. A satellite whose orbit reaches latitude j at most is never closer to an observer at a higher latitude than along the meridian; if the distance asked for is less, the trying query answers none for every root finder and the blocking query never returns. The reported velocity is zero although half a period later the satellite is on the other side of the Earth.", "quantifier": "all orbits, altitudes, ground positions, elevations, distances, start times, root finders and builds", "why_tests_cant": "The tests ask one satellite that passes over one ground node; the null pointer, the never ending wait and the agreement of the two queries concern all satellites, latitudes and root finder results.", "anchors": ["model/circular-orbit.cc:138-333", "model/orbit/circular-orbit-impl.cc:125-148"]}
{"id": "C84", "title": "The decisions of the MAC layers in floating-point arithmetic", "statement": "With doubles instead of exact numbers: (1) the number of replicas is n exactly if the sample lies between the rounded sums of the first n-1 and the first n coefficients; it is the number of exact arithmetic unless the sample is within 2^-36 of a partial sum. For up to 65535 coefficients that are the roundings of numbers adding up to 1, every sample up to 1 - 2^-33 (all that ns-3's generator yields) gives a number; but there are representable coefficients adding up to exactly 1 and a sample below 1 for which the draw aborts. (2) If the received powers differ by at most a factor of 2^52 (156 dB), rounding never hides an interferer: the test with the default threshold drops every frame that shares its busy period, so Aloha passes up exactly the frames that overlap no other and CRDSA exactly the decodable packets, as in exact arithmetic. An interferer weaker by a factor of 2^54 (163 dB) is absorbed by the rounding and the stronger frame is passed up although another one overlaps it. (3) With a finite threshold and up to 65536 frames in a busy period the capture decision is that of exact arithmetic unless the signal-to-interference ratio is within 0.01 dB of the threshold (ratios from -210 dB to 60 dB).", "quantifier": "all coefficient vectors, samples, powers, thresholds, histories and ways of breaking ties when rounding to nearest", "why_tests_cant": "Rounding errors depend on all bits of the numbers; tests use a few powers and one coefficient vector, and the abort of the draw has probability 2^-53.", "anchors": ["model/mac/crdsa-mac-model.h:48-64", "model/mac/aloha-mac-model.cc:105-165", "model/mac/crdsa-mac-model.cc:319-366"]}
{"id": "C85", "title": "The shuffle of the slot table is fair", "statement": "GetSelectedSlots shuffles the slot table with std::shuffle and 32-bit values of a generator. As libstdc++ implements it (two swap positions from one value; reduction to a range by multiplication or by division, with values rejected and drawn again), a table of at most 65535 slots never leaves the branches for which this is safe, stays inside the table and a rearrangement of it, and uses at least one value for every two slots. Each result of one draw has equally many generator values, at most half of the values are rejected. Therefore, of all sequences of L values, equally many lead to any two orders of the table, and equally many to any two selections of k different slots, whatever the table looks like after earlier packets; every order is reached by a sequence of n/2 values; and the part of the sequences that do not suffice is at most 4^(n/2)*(3/4)^L. So means over generator values are means over the orders of the tables, in particular the throughput bounds of C79. ns-3's generator has only 4294967087 values: 209 of the 32-bit values that the adaptor promises, among them 0, never occur, and each result of a draw lacks at most 209 of its values.", "quantifier": "all table sizes below 65536, all orders of the table before the shuffle, all sequences of generator values of every length, both ways of reduction", "why_tests_cant": "Fairness is about all n! orders and all (2^32)^L sequences of generator values; a test sees a few draws, and a bias of a few values in 2^32 shows in no histogram.", "anchors": ["model/mac/crdsa-mac-model.cc:40-69", "model/mac/crdsa-mac-model.cc:137-162"]}
{"id": "C86", "title": "The search for crossings leaves the numerical library as it found it", "statement": "A search by findNextCross creates one or two solvers of the GNU Scientific Library, switching the library's process-wide error handler off meanwhile. If there is memory for them, then after the search, whatever handler was in force before and whatever errors the library raised, the same handler is in force again, every solver is freed exactly once and none is used after that, no handler of the user was called, and the answer is that of C51/C81. Without memory the program aborts under the default handler and uses a null pointer under any other one. Switching off is necessary: starting a solver is an error, fatal under the default handler, exactly if the satellite is on the same side of the target distance at both ends of the interval. A solver object called again repeats its answer without another search.", "quantifier": "all satellites, observers, targets and times, all root finders, all states of the library (handler, live solvers), all outcomes of allocation", "why_tests_cant": "The state of the library is invisible in the result of a search; a leaked solver or a handler left switched off shows only in other code of the same process, and failing allocations do not occur in tests.", "anchors": ["model/orbit/search/distancesolver.cc:94-185", "model/orbit/search/distancesolver.cc:200-223"]}
{"id": "C87", "title": "Set-up with too few, enough or too many satellites", "statement": "IcarusHelper::Install on distinct nodes followed by ISLHelper::Install on a container of satellites among them. With fewer satellites than seats the first succeeds and the second dereferences a null pointer; its debug assertion only catches containers whose length differs from the number of satellites. With as many satellites as seats both succeed and there is exactly one link between the satellites of neighbouring places and no other; a container of another length fails in debug builds and makes no difference in release builds. With more satellites than seats IcarusHelper::Install accesses memory outside the table (debug builds: an assertion fails). A ground station in the container is a null dereference. Of the example programs, isl-vostping dereferences null as shipped; isl-grid and ground2groundping succeed.", "quantifier": "all lists of distinct nodes, all positions, containers and constellation sizes that fit 16 bits, both byte orders, debug and release builds", "why_tests_cant": "No test installs inter-satellite links on an incomplete constellation or with a wrong container, and a run only shows one size and one build.", "anchors": ["helper/isl-helper.cc:125-193", "helper/icarus-helper.cc:239-255", "helper/constellation-helper.cc:52-88", "examples/isl-vostping.cc:52-65", "examples/isl-grid.cc:78-84", "examples/ground2groundping.cc:92-125"]}
{"id": "C88", "title": "Conversion of positions to geographic coordinates", "statement": "CartesianToGeographicCoordinates, with which two example programs print the ground track of satellites, computes the geodetic latitude by an iteration without a bound on the number of rounds. For each of the three Earth models: for every position off the Earth's axis and at least 0.9 Earth radii from the centre the loop ends within five rounds, no assertion fails and the coordinates are in [-90, 90] x [-180, 180). Applied to the position of a point of given latitude (strictly between the poles), longitude and altitude (down to a twentieth of the radius under ground) it returns the longitude exactly, the latitude with an error of at most 1.2e-7 degrees and the altitude, where the cosine of the latitude is at least 1/1000, with an error of at most 2e-7 (a + h) / cos(latitude). On the sphere it is an exact inverse. On the axis it yields no number. Closer than a / 100000 to the northern axis the loop ends after one round and the altitude is too large by a factor of 1 / (1 - e^2): a kilometre of error for a satellite at 250 km. The surfaces of altitude 0 are the sphere of radius 6371.009 km and, to 2 parts in 10^18, the ellipsoids of GRS80 and WGS84 given by their equatorial radius and flattening.", "quantifier": "all real positions, latitudes, longitudes and altitudes in the stated ranges, all Earth models, debug and release builds", "why_tests_cant": "There is no test of the function; a test sees finitely many positions and cannot show that a loop without bound always ends.", "anchors": ["examples/constellation-positions.cc:42-115", "examples/single-bird-orbit.cc:59-132"]}
{"id": "C89", "title": "Motion of satellites and the nearest satellite between two updates", "statement": "In the frame in which the positions are reported (rotating with the Earth) a satellite in a circular orbit of radius r moves at most (r - 9 m) (n + w) |t - u| metres between any two instants t and u, where n is its mean motion and w the rate of rotation of the Earth; for orbits between the ground and 43 000 km above it that is at most 11.6 km/s. Hence for the periodic tracker: after every update and as long as nobody else assigns the tracked address, at every instant up to the next update the tracked satellite is at most 2 v T farther from the station than any other satellite of the constellation, where T is the update interval and v the bound on the speeds. It need not be the nearest one: with an interval of 1000 s, of two satellites that follow each other the wrong one is tracked.", "quantifier": "all orbits, all pairs of instants, all constellations, intervals, first delays and executions of the tracker", "why_tests_cant": "The tests never let a satellite move and look at one update at a time; a test sees finitely many instants.", "anchors": ["model/circular-orbit.cc:176-205", "model/ground-node-sat-tracker-periodic.cc:57-115", "model/constellation.cc:88-118"]}
{"id": "C90", "title": "Order and spacing of frames on links with moving ends", "statement": "With the propagation delay model that both helpers install and ends that move on circular orbits or rest: two frames that start u - t apart at one end begin to arrive at the other end with the same distance in time but for less than b (u - t) + 1 ns, where b is the sum of the speeds of both ends over the speed of light, and never begin to arrive in the other order. Frames that start at least one slot apart do not overlap at the receiver if they are shorter than (1 - b) slot - 1 ns. If no packet lasts so much longer than another one that b x + 1 ns > y for their durations x and y, then every inter-satellite link passes up packets in the order in which they were accepted, a satellite with the pass-through MAC passes up the packets of each station in the order in which the station put them on the air, and a station passes up the packets of each satellite in the order in which the satellite put them on the air. Without a guard time frames of one station do overlap: sent back to back to an approaching satellite above the horizon, the second one begins to arrive before the first one has ended.", "quantifier": "all orbits and positions, all rounding rules of the conversion to ticks that are monotone and commute with whole ticks, all traffic, all executions, debug and release builds", "why_tests_cant": "The tests use stations and satellites at rest; whether frames can overtake or overlap depends on all pairs of instants and all orbits.", "anchors": ["model/ground-sat-channel.cc:91-160", "model/sat2sat-channel.cc:107-140", "model/circular-orbit.cc:189-205", "helper/icarus-helper.cc:66", "helper/isl-helper.cc:57"]}
{"id": "C91", "title": "The network comes to rest, and then everything accepted has been handled", "statement": "From any state that uplink, downlink or inter-satellite links can reach: if no device is called from outside any more, the simulator runs only a bounded number of events. The bound is explicit: on inter-satellite links three for each waiting packet, two for each frame in flight, one for each transmission and each reception begun; from a satellite, 2 n + 1 for each waiting packet with n stations on the channel; from the stations, four for each of the at most K replicas of a waiting packet. A state with no event left to run is always reached; there no packet is waiting. On inter-satellite links, from the satellites to stations that did not change their satellite in the instant of an arrival, and from the stations to satellites with the pass-through MAC, every packet accepted so far has then been passed up exactly as often and exactly when C60, C59 and C55 say; with every receiver and every MAC, every packet accepted has been handed to the MAC. The same holds in the order in which ns-3 runs the events of one instant.", "quantifier": "all reachable states, all orders of events of the same instant, all queues, all MACs that send each packet at least once and at most K times, all receivers, debug and release builds", "why_tests_cant": "Tests stop the simulator at a fixed time; that no chain of events goes on for ever, and that no packet stays behind in a queue with nothing scheduled to take it out, is a statement about all histories.", "anchors": ["model/ground-sta-net-device.cc:361-431", "model/sat2ground-net-device.cc:302-370", "model/sat-net-device.cc:147-174", "model/sat-net-device.cc:207-236", "model/mac/crdsa-mac-model.cc:164-190"]}
{"id": "C92", "title": "Every traffic can be simulated to its end", "statement": "Uplink, downlink and inter-satellite links admit every traffic: for every list of calls from outside (Send, SetRemoteAddress, SetTxPower), in the order of their times, that only track launched satellites, there is an execution that makes exactly these calls, at exactly these times, runs every event in the order of time, does not fail, and ends with nothing scheduled. If the queue of a device never drops a packet, the device accepts exactly the packets it is asked to send, each with the time, the power and the satellite of its call. The same holds in the order in which ns-3 runs the events of one instant, for pass-through and Aloha receivers, and for CRDSA with at most two replicas of distinct packets that fit their slots, where the satellites then pass up exactly what can be decoded.", "quantifier": "all time-ordered lists of calls, all networks, queues, MACs that send each packet at least once and at most K times, debug and release builds", "why_tests_cant": "A test makes one list of calls. That no list of calls leads the simulator into a state where an event is overdue, where a call cannot be made at its time, or where an assertion fails, concerns all of them; it also shows that the theorems about executions speak about every traffic.", "anchors": ["model/ground-sta-net-device.cc:361-431", "model/sat2ground-net-device.cc:302-370", "model/sat-net-device.cc:147-174", "model/ground-sat-channel.cc:94-168", "model/sat2sat-channel.cc:109-140"]}
{"id": "C93", "title": "Throughput of the whole uplink", "statement": "N ground stations with one satellite in reach are asked to send one packet each; stations, MACs, channel and receiver run together until nothing is scheduled any more. Added over all choices of the ticks of the calls within M slots, a satellite with the slotted Aloha MAC passes up N (M slot) (M slot - slot)^(N-1) packets, i.e. N (1 - 1/M)^(N-1) on average: in every order of events of the same instant if frames leave more than the spread of the delays of their slot empty, and in the order of ns-3 also if they fill their slots. Without slots, with equal delays shorter than the frames, the total is N times the sum over the ticks x of the (N-1)-th power of the number of ticks that do not disturb x. With CRDSA, two replicas in frames of n slots, the mean over all orders of the slot tables lies between N (2 (1 - 2/n)^(N-1) - ((1 - 2/n)(1 - 2/(n-1)))^(N-1)) and N (1 - 2/(n (n-1)))^(N-1). For every choice there is such a run.", "quantifier": "all numbers of stations, slots and ticks, all packets, delays and powers that exclude capture, all executions for each choice", "why_tests_cant": "A simulation samples a few choices. The totals are over all (M slot)^N of them (or all (n!)^N orders of the slot tables), for every N and M, and concern the code of the whole path from Send at the station to the callback at the satellite.", "anchors": ["model/ground-sta-net-device.cc:361-431", "model/mac/aloha-mac-model.cc:57-168", "model/mac/crdsa-mac-model.cc:137-278", "model/mac/crdsa-mac-model.cc:319-424", "model/ground-sat-channel.cc:94-168", "model/sat2ground-net-device.cc:302-370"]}
{"id": "C94", "title": "Queues keep their limits and every packet leaves them in bounded time", "statement": "Every device of the simulator sends through an ns-3 drop-tail queue. In every state the queue of a ground station (with any medium access model), of a satellite's device towards the ground and of a device between satellites holds at most as many packets, or bytes, as its limit allows. If the limit is K > 0 packets and packets last at most L ticks, a packet accepted at time a goes on the air, at the latest, at a + K L without medium access model, at a + K (slot - 1 + L) + slot - 1 with slotted Aloha and at a + K (2 frame + L) + 2 frame with CRDSA with at least one replica (all its copies), and once the clock is past that moment it has been on the air; for the devices of the satellites at a + K L. The first bound is reached for every K and L. The same holds for any queue discipline that accepts a packet only behind a bounded amount of work. The length of the queue that a transport reports to NFD is at most the capacity it has announced if the limit is in bytes, or in packets of at most 1500 bytes and below 2863312; without these conditions it may exceed it.", "quantifier": "for all sequences of calls and events, all queue limits, packet lengths and sizes, MAC models (all shuffles and replica counts), debug and release builds", "why_tests_cant": "A test watches single queues for a while; that a packet can never be stuck behind others, however arrivals, slots, shuffled replicas and late finish callbacks of earlier copies interleave, is a statement about all executions, and the bound being exact needs a family of worst cases for all sizes.", "anchors": ["model/ground-sta-net-device.cc:361-431", "model/sat2ground-net-device.cc:302-370", "model/sat-net-device.cc:147-174", "model/sat-net-device.cc:372-396", "model/mac/none-mac-model.cc:44-52", "model/mac/aloha-mac-model.cc:57-78", "model/mac/crdsa-mac-model.cc:152-190", "model/ndn/ground-sta-transport.cc:89-104", "model/ndn/sat2ground-transport.cc:90-103", "helper/icarus-helper.cc:59", "helper/isl-helper.cc:53"]}
{"id": "C95", "title": "Every link and every journey has a greatest delay", "statement": "Take the whole network: stations, satellites with devices to the ground and to neighbours, and all channels. Suppose queues take at most K > 0 packets, packets last at most L ticks, the medium access model puts a frame on the air within B ticks, and open links have propagation delays of at most M. Then, with a receiver that passes frames up at their end (no medium access model, Aloha), a packet that any node gets was given to `Send` at the other end of one of its links at most K (B + L) + B + M + L ticks before; and its whole journey from the node where it entered the network, over any number of links, takes at most that many ticks per link plus the time the satellites on the way have kept it. Conversely, a packet accepted by a station's queue (without medium access model at the receiver), by a satellite's device to the ground or by a device between satellites does get to the other end within that time, if the link stays open meanwhile (and, downwards, the station stays tuned to the satellite) and no event is overdue. For CRDSA no such limit holds: a frame can be passed up long after its end and after the two CRDSA frames that the receiver keeps.", "quantifier": "for all networks, positions, orbits, delays, queue disciplines with bounded backlog, packets, times and interleavings of all events, debug and release builds", "why_tests_cant": "A test measures the delays of the packets it sends. That no interleaving of queues, slots, shuffled replicas, links and relays at any node delays a received packet further, over any number of links, is a statement about all executions of the whole network.", "anchors": ["model/ground-sta-net-device.cc:361-431", "model/sat2ground-net-device.cc:302-370", "model/sat-net-device.cc:147-174", "model/sat-net-device.cc:372-396", "model/ground-sat-channel.cc:54-165", "model/sat2sat-channel.cc:58-119", "model/mac/none-mac-model.cc:44-52", "model/mac/aloha-mac-model.cc:57-78", "model/mac/crdsa-mac-model.cc:152-190", "model/mac/aloha-mac-model.cc:91-148"]}
{"id": "C96", "title": "A tagged Interest reaches exactly the stations of the addressed satellite, in time", "statement": "Take the network that the helpers set up (devices, torus of inter-satellite links, routes, the GeoTag strategy on every satellite) and run it: queues, medium access, propagation, links that open and close, stations that retune. Let an Interest be tagged with the satellite at place (plane, index) = t. (a) If satellites send the Interest only when the strategy tells them to, then every station that gets it is tuned at some time to the satellite at t, the Interest entered through a station and the satellite that this station addressed, it crossed exactly as many inter-satellite links as that satellite is away from t on the torus, and the time from its first hand-over to a device is at most the time that satellites kept it plus (distance + 2) times the greatest delay of a link. (b) Without medium access model at the receivers, and if NFD carries out what the strategy asks for within H ticks while links are open, the Interest accepted by a station's queue is passed up by every station tuned to t's satellite within (distance + 2) link delays and (distance + 1) H.", "quantifier": "for all constellation sizes, node layouts, host byte orders, orders of NFD's next hops, targets, queue disciplines with bounded backlog, propagation delays, times and interleavings of all events, debug and release builds", "why_tests_cant": "A test geocasts to one target in one constellation. That in no constellation and in no interleaving a satellite other than the addressed one sends the Interest to the ground, that the route is never longer than the torus distance, and that the delay limit holds, is a statement about all executions of helpers, strategy and network together.", "anchors": ["fw/geotag-strategy.cpp:59-351", "helper/icarus-helper.cc:239-312", "helper/isl-helper.cc:125-238", "model/ground-sta-net-device.cc:361-431", "model/sat2ground-net-device.cc:302-370", "model/sat-net-device.cc:147-174", "model/ground-sat-channel.cc:54-165", "model/sat2sat-channel.cc:58-119"]}
{"id": "C97", "title": "The whole network simulates every traffic and comes to rest", "statement": "Take any set-up of ground stations (any MAC model that sends at most K copies, receivers of NoneMacModel or AlohaMacModel), satellites and inter-satellite links. (a) From every state that can be reached, once no device is called any more, at most a number of events take place that is computed from the state, no matter in which order simultaneous events run; as long as anything is scheduled anywhere, the earliest event of the network can run without a failed assertion or undefined behaviour; nothing is scheduled if and only if no event can run; and running events always ends in that state. (b) Every list of calls of Send, SetRemoteAddress and SetTxPower of any devices, in the order of their times, that only tracks launched satellites is carried out by some execution that makes exactly these calls, at their times, and ends with nothing scheduled. Each device whose queue never drops then has accepted exactly what it was asked to send, when it was asked, with the address and power of that time.", "quantifier": "for all networks, lists of calls, reachable states and orders of simultaneous events", "why_tests_cant": "A test runs one traffic. That no traffic can make up- and downlinks and inter-satellite links schedule events for ever, or stop with an event that cannot run, is a statement about all reachable states of all networks.", "anchors": ["model/ground-sta-net-device.cc:253-446", "model/sat2ground-net-device.cc:176-370", "model/sat-net-device.cc:147-268", "model/ground-sat-channel.cc:54-165", "model/sat2sat-channel.cc:58-119", "model/mac/none-mac-model.cc:38-80", "model/mac/aloha-mac-model.cc:71-171"]}
{"id": "C98", "title": "Satellites that forward tagged Interests by themselves deliver them in time, and only where they are meant to go", "statement": "Take the network set up by the helpers (n planes of s satellites, linked as a torus), and let every satellite's NFD forward each of a set of tagged Interests, the first time it comes in, at once and to the face that the GeoTag strategy chooses, as a consequence of what the devices pass up (nothing about forwarding is assumed beyond that). (a) Whatever calls the stations, trackers and other applications make: such an execution exists, ends with nothing scheduled and nothing left to forward, and no such execution goes on for ever. (b) With NoneMacModel: an Interest accepted by a station's queue at time a, when the station tracks satellite d0, and given to no station before, is passed up by every station tuned to the satellite at the tagged place, after at most (distance of d0 and the tagged place on the torus + 2) times the greatest delay of one link, if links are open for so long and no satellite's queue is full; queues that count packets and have room for as many packets as there are such Interests are never full, if nobody else makes satellites send. (c) With every receiver that delivers frames when they end: a station that gets the Interest is tuned at some time to the satellite at the tagged place, and the Interest came from a station to which it was given, over satellites only, over exactly as many inter-satellite links as the torus needs, spending no time at satellites but in queues and on links, within that bound.", "quantifier": "for all grids, placements, calls, sets of tagged Interests, FIB orders, propagation delays within the limits, and orders of simultaneous events", "why_tests_cant": "Forwarding decisions at each satellite depend on events elsewhere at all earlier times, and duplicates may arrive in any order; a test sees one traffic and one order of simultaneous events. Termination for every traffic, and a time bound for every grid and place, are statements about all executions.", "anchors": ["fw/geotag-strategy.cpp:59-351", "helper/icarus-helper.cc:239-312", "helper/isl-helper.cc:125-238", "model/ground-sta-net-device.cc:361-431", "model/sat2ground-net-device.cc:302-370", "model/sat-net-device.cc:147-174", "model/ground-sat-channel.cc:54-165", "model/sat2sat-channel.cc:58-119"]}
{"id": "C99", "title": "An Interest tagged with a satellite's place and the Data that answer it make the round trip in time, and the Data come down only from the satellite of the station that asked", "statement": "On top of C98, let producers at ground stations answer an Interest of theirs, when it is passed up, with Data at once; and let every satellite's NFD send Data that come in, once and at once, to the face on which it had got the Interest, if its PIT entry is younger than the Interest's lifetime, but not back to the face on which the Data came in (unless that is face 0, the ad-hoc face to the ground). (a) Whatever calls are made: such an execution exists, ends with nothing scheduled and nothing owed, and none goes on for ever. (b) With NoneMacModel: a consumer's Interest accepted at time a by the queue of a station that tracks satellite d0, tagged with a place of the grid, for which there is a producer at a station tracking the satellite there, is answered: Data are passed up by the consumer's station at the latest 2·(distance of d0 and the tagged place on the torus + 2) link deadlines after a, if for so long both stations stay with their satellites, links are open and the Interest lives, and no queue drops the two packets; queues of satellites that count packets and have room for twice as many packets as there are Interests never drop. (c) With every receiver that delivers frames when they end: whoever gets the Data is tuned at some time to d0, and the Data were sent by a producer after it got the Interest, after a, at a station tuned at some time to the satellite at the tagged place.", "quantifier": "for all grids, placements, calls, sets of Interests and producers, FIB orders, propagation delays within the limits, and orders of simultaneous events", "why_tests_cant": "The way back depends on PIT state left at each satellite by the way there, in every order of simultaneous events; a ping test shows one pair of places and one timing.", "anchors": ["fw/geotag-strategy.cpp:59-351", "model/ndn/sat2ground-transport.h:44-50", "model/ndn/ground-sta-transport.h:43-49", "helper/icarus-helper.cc:239-312", "helper/isl-helper.cc:125-238", "model/ground-sta-net-device.cc:361-431", "model/sat2ground-net-device.cc:302-370", "model/sat-net-device.cc:147-174", "model/ground-sat-channel.cc:54-165", "model/sat2sat-channel.cc:58-119"]}
{"id": "C100", "title": "Ground stations with periodic trackers address every packet to a nearly nearest satellite, and where coverage has the right margin every packet arrives in time", "statement": "Let every ground station have a tracker that assigns the tracked address, in the same simulation as the devices, channels and satellites. (a) The run of the network, and of each tracker, is one of the network and of the tracker alone, every call of a tracker is an assignment in the network at that time, and the device's tracked address is always the last one assigned. (b) With periodic trackers of interval I > 0 and offset at most I, satellites on circular orbits with relative speed at most v: every packet given to a station after time 0 is addressed to a satellite of the constellation such that no other is nearer, at that time, by more than 2·v·I. (c) If, when a packet is accepted by the station's queue, some satellite is within the range of the link minus 2·v·I minus v times the longest time until the packet has arrived, then with NoneMacModel the packet is passed up by the satellite it is addressed to, within the link's deadline. (d) Every ordered sequence of calls can be simulated up to any time, with all calls of the trackers. (e) Together: for traffic with coverage by that margin at each send, such a simulation exists, and in every one every packet not dropped by the station's queue arrives in time; a queue that counts packets with room for all of them drops none.", "quantifier": "for all constellations, orbits, positions, intervals, offsets, traffic, propagation delays within the limits, and orders of simultaneous events", "why_tests_cant": "The result joins the geometry of all orbits with the timing of trackers, queues and channels; tests place one satellite and never let the tracker's choice age by a whole interval.", "anchors": ["model/ground-node-sat-tracker-periodic.cc:57-115", "model/ground-node-sat-tracker-elevation.cc:91-187", "model/ground-sta-net-device.cc:301-311", "model/ground-sta-net-device.cc:361-431", "model/ground-sat-channel.cc:54-165", "model/sat2ground-net-device.cc:302-370", "model/circular-orbit.cc:176-217"]}
{"id": "C101", "title": "Ground stations with elevation trackers send to visible satellites, packets are lost only at handovers, and a search that rounds down stops the whole simulation", "statement": "Let every ground station have an elevation tracker, in the same simulation as the devices, channels and satellites; let the trackers read true elevations and setting times at most delta too late (as in C71), and always find a satellite. (a) No execution fails. (b) Every packet given to a station after time 0 is addressed to a satellite that the tracker chose, at some time t before, as one that sets last among the visible ones; it is given before the setting time b known to the tracker, at which the next call of the tracker takes place; and from t until delta before b the satellite is above the minimum elevation. (c) With NoneMacModel and links open above the minimum elevation and for a time `extra` longer: a packet accepted by the station's queue is passed up by that satellite within the link's deadline, unless the tracker looks for another satellite before the longest time a packet stays in the device plus delta minus extra has passed. So packets are lost at handovers only, and none if the links' minimum elevation leaves enough room below the tracker's. (d) Then every ordered traffic can be simulated up to any time and every packet not dropped by the station's queue arrives in time. (e) If at the time of a tracker's call every visible satellite is said to set at that very time - as with exact setting times rounded down to nanoseconds - the time of the whole simulation never gets beyond it, although nothing fails.", "quantifier": "for all constellations, orbits, positions, minimum elevations, errors of the setting times, traffic, propagation delays within the limits, and orders of simultaneous events", "why_tests_cant": "Losses at a handover and the standstill need a packet or a call of the tracker in a window of a few nanoseconds to milliseconds of a pass; a test run would have to hit it by chance, and a standstill looks like a slow simulation.", "anchors": ["model/ground-node-sat-tracker-elevation.cc:91-187", "model/circular-orbit.cc:290-333", "model/ground-sta-net-device.cc:301-311", "model/ground-sta-net-device.cc:361-431", "model/ground-sat-channel.cc:54-165", "model/ground-sat-success-elevation.cc:40-90", "model/sat2ground-net-device.cc:302-370"]}
{"id": "C102", "title": "Elevations change slowly, so a small difference between the tracker's and the link's minimum elevation suffices for every packet to arrive", "statement": "(a) Between two instants the elevation of a satellite, seen from a ground node, changes by at most pi/2 times the distance the satellite can cover in the time between (C89's speed), divided by its height above the ground node. (b) At least 200 km above the node it changes by less than one degree in 190 ms. (c) If the channel uses GroundSatSuccessElevation, a packet passed up by a satellite was transmitted by a station when that satellite was at the link's minimum elevation or above, whatever the medium access and receiver. (d) If the link's minimum elevation is below the trackers' by at least the change possible in a time `extra`, the link stays open that long after the satellite was above the tracker's minimum. (e) So, with NoneMacModel, elevation trackers and GroundSatSuccessElevation in the same simulation, and `extra` longer than a packet can wait in the station's device plus the error of the setting times, every packet not dropped by a station's queue is passed up by a satellite within the link's deadline, also at handovers. Both attributes default to 25 degrees, which leaves no such room.", "quantifier": "for all circular orbits above the stations, positions, times, constellations, minimum elevations with that difference, traffic and orders of simultaneous events", "why_tests_cant": "Whether a margin is enough depends on the steepest passage at the worst instant of a handover; tests see some passages at sampled times.", "anchors": ["model/ground-sat-success-elevation.cc:40-110", "model/ground-node-sat-tracker-elevation.cc:57-75", "model/ground-node-sat-tracker-elevation.cc:91-187", "model/circular-orbit.cc:176-205", "model/circular-orbit.cc:234-254", "model/ground-sat-channel.cc:94-137"]}
{"id": "C103", "title": "If the tracker and the link need the same elevation, as by default, packets queued at a handover are lost", "statement": "(a) Let a station's medium access send one copy of each packet and the channel use GroundSatSuccessElevation. A packet accepted by the station's queue behind another one, and given to no other station, is passed up by no satellite as long as, from the end of the other one's transmission time after its acceptance, the satellite that the station tracked when the packet was given is below the link's minimum elevation - whatever the receivers, and also if the station tracks a higher satellite meanwhile. (b) Hence C102's room between the two minimum elevations is needed: for a tracker and a channel with the same minimum elevation (both attributes default to 25 degrees; the witness uses 0), there are a constellation of which one satellite is always visible, a station with an elevation tracker that reads exact elevations and setting times rounded up, and a simulation up to long after the deadline, in which a packet is accepted 4 to 5 nanoseconds before its satellite sets, while that satellite is visible, no queue drops anything, and no satellite passes the packet up.", "quantifier": "(a) for all set-ups, MAC models that send once, receivers, traffic and executions; (b) existence of a counterexample to the claim that trackers and links with equal minimum elevations lose nothing", "why_tests_cant": "The loss needs a packet in a window as short as the queue's delay before a satellite sets; a test with packets at other times sees none, and a lost packet looks like an ordinary link loss.", "anchors": ["model/ground-sat-success-elevation.cc:40-110", "model/ground-node-sat-tracker-elevation.cc:57-75", "model/ground-node-sat-tracker-elevation.cc:151-187", "model/ground-sta-net-device.cc:287-311", "model/ground-sta-net-device.cc:361-431", "model/ground-sat-channel.cc:94-137"]}
{"id": "C104", "title": "A satellite that is still visible but has set for the search fails the tracker's assertion, or is kept for more than half an orbit", "statement": "The elevation tracker takes a satellite for visible by its elevation over the node, but asks for the setting time a search that observes from the point of C57 (geodetic latitude used as geocentric one) and compares distances. (a) Call a satellite just set for the search if it was closer than the distance for the minimum elevation less than half an orbit ago, is no longer so since more than a second, and is closer again one period from now and two seconds later. Every time the search then returns is more than half an orbit and one second in the future, whatever the root finder does within its interval; with Brent's method, if it converges, there is such an answer. (b) If an update happens while such a satellite is above the minimum elevation, then in debug builds the assertion of getVisibleSats (setting within half an orbit) fails, whatever the other satellites do. (c) In other builds, all satellites having the same altitude, the update tracks some satellite and schedules the next update more than half an orbit later, though the tracked satellite is below the minimum elevation from the end of the longest possible pass until half an orbit after the update. (d) C71's assumption on the search is violated. (e) This happens: a polar orbit 2000 km high, a station on the WGS84 ellipsoid 36.9 degrees south, minimum elevation 0 and a root finder that finds the next rising.", "quantifier": "(a)-(d) for all orbits, stations, minimum elevations, root finders, fully populated constellations and times; (e) existence", "why_tests_cant": "The disagreement lasts a few seconds at the end of a pass, and the tracker's updates fall into it only for special geometries; the tests use stations for which the geodetic and geocentric latitude agree, or check the search alone.", "anchors": ["model/ground-node-sat-tracker-elevation.cc:106-187", "model/circular-orbit.cc: CartesianToGeographicCoordinates, CircularOrbitMobilityModel::tryGetNextTimeAtElevation", "model/orbit/search/distancesolver.cc:145-223", "model/orbit/circular-orbit-impl.cc:84-157"]}
{"id": "C105", "title": "For stations on the equator the tracker's assertion holds and a satellite is kept at most 150 seconds after it has set", "statement": "The counterpart of C104 for a ground node on the equator, 6376 to 6390 km from the Earth's centre (sea level is 6378 km), and circular orbits of any inclination 160 to 2000 km high, minimum elevation from 0 to less than 90 degrees, simulated time (plus one period) up to 10^6 seconds, Brent's method. (a) The time that the search returns for a satellite above the minimum elevation is not in the past and at most 150 seconds after the satellite has sunk to the minimum elevation, which it does more than 900 seconds before half an orbit has passed, provided that no second pass ends within the coming period (a satellite within the distance in the period's second half stays so for the rest of it) and that the second call of the root finder converges if there is one. (b) The first of these provisos holds for satellites on equatorial orbits eastwards. (c) If this is so for all satellites, an update of the elevation tracker does not fail its assertion, also in debug builds. When there is a satellite above the minimum elevation with a setting time, the update tracks a satellite above the minimum elevation and schedules the next update for at most 150 seconds and a nanosecond after that one has sunk to the minimum elevation; otherwise it aborts. (d) There are a constellation and a time for which all of this holds and the update finds a satellite.", "quantifier": "for all orbits, stations, minimum elevations, times, root finders behaving as Brent's method, fully populated constellations; (d) existence", "why_tests_cant": "The margin between the two notions of visibility is a few metres in the distance, depends on the difference between the 6371009 m the search uses and the station's radius, and must hold for every position of the satellite and every time.", "anchors": ["model/ground-node-sat-tracker-elevation.cc:106-187", "model/circular-orbit.cc: CartesianToGeographicCoordinates, CircularOrbitMobilityModel::tryGetNextTimeAtElevation", "model/orbit/search/distancesolver.cc:145-223", "model/orbit/circular-orbit-impl.cc:84-157"]}
{"id": "C106", "title": "The program examples/elevation-tracker.cc with its default parameters never loses its satellite", "statement": "For the constellation of examples/elevation-tracker.cc (60 planes of 42 satellites, phasing 1, 400 km, 60 degrees) launched by the helper, a station on the equator at Greenwich and the elevation tracker with minimum elevation 25 degrees: (a) at every moment some satellite is above 25 degrees for the station. (b) The search for the setting time of a satellite above 25 degrees has an answer that is not in the past and at most 26 seconds after the satellite has sunk to 25 degrees. (c) Hence every update of the tracker succeeds, also in debug builds: it finds a satellite above 25 degrees, no assertion fails, and the next update comes at most 26 seconds and a nanosecond after that satellite has sunk to 25 degrees. (d) In every execution of the tracker up to the end of the seven days the next update is scheduled and succeeds if due by then, and the satellite of the latest update is above 25 degrees or was so at most 26 seconds and a nanosecond ago. (e) The root finder is only assumed to stay in its interval and to let the solver answer when the satellite is within the distance at the interval's start and not at its end; Brent's method does so if it converges within 1000 iterations. (f) There are root finders and launched constellations meeting all hypotheses.", "quantifier": "for all times, executions, byte orders, constellation identifiers, device types, initial addresses, root finders with the stated contract; debug and release builds; (f) existence", "why_tests_cant": "Coverage must hold at every real time, and running the program for its seven days checks one sequence of update times of one root finder; a change in rounding leads to different ones.", "anchors": ["examples/elevation-tracker.cc:41-121", "model/ground-node-sat-tracker-elevation.cc:106-187", "helper/constellation-helper.cc:52-109", "model/orbit/search/distancesolver.cc:145-223", "model/orbit/circular-orbit-impl.cc:84-157"]}
{"id": "C107", "title": "Nothing sent out of range is received, and examples/vostping.cc is silent most of the time", "statement": "(a) With the distance success model at the channel, a packet that a satellite's ground-facing device passes up was on the air from a station that addressed this satellite at a moment, not later, at which the satellite was within the maximum distance of the station; likewise for what a station passes up from satellites. (b) In the network of examples/vostping.cc (two-plane constellation with one satellite each, 250 km, 60 degrees, of which any are launched; stations at 42.1704632 N, 8.6877909 W, 450 m; maximum distance 1000 km) every launched satellite is more than 1000 km away from the station from half a period before until 450 seconds after each completed period, (c) which is more than 58 percent of the time; (d) hence nothing put on the air in these times is received in either direction, whatever is sent by whom and when, and (e) in the first 450 seconds nothing at all is received. (f) There is such a network and a simulation in which the station accepts a packet 100 seconds after the start, sends it at once, and no satellite ever passes it up.", "quantifier": "for all executions of networks with such channels, traffic, receivers (None, Aloha, CRDSA), queues, launched satellites and byte orders; (b) for all real times; (f) existence", "why_tests_cant": "A run of the example shows the traffic of one schedule of pings; that a whole time span admits no reception for any traffic at any instant, in every period, cannot be sampled.", "anchors": ["examples/vostping.cc:41-110", "model/ground-sat-success-distance.cc:36", "model/ground-sat-success-distance.cc:60-76", "model/ground-sat-channel.cc:94-167", "model/circular-orbit.cc:189-205", "helper/constellation-helper.cc:52-109"]}
{"id": "C108", "title": "Nothing is received below the minimum elevation, and the two stations of examples/sputping.cc are never in contact at the same time", "statement": "(a) A satellite seen at an elevation of at least m (m >= 0) is at most sqrt(R^2 - (r cos m)^2) - r sin m away, where r and R are the distances of station and satellite from the Earth's centre. (b) With the elevation success model at the channel, whatever a satellite passes up from the ground, and whatever a station passes up from satellites, was put on the air, not later, at a moment at which the satellite was at the minimum elevation or above for that station. (c) In the network of examples/sputping.cc (two-plane constellation with one satellite each, 250 km, 60 degrees; stations at 42.1704632 N, 8.6877909 W, 450 m and at 27.39979 S, 33.66416 W; minimum elevation 25 degrees, the default) this is only so while the satellites are well in the north, sine of their angle at least 0.59, for the first station, and well in the south, at most -0.38, for the second; (d) hence within less than 800 seconds only one of the stations has contact, whatever the satellites they address, (e) in the first 500 seconds nothing is received at all, and in the first 3000 seconds nothing from or at the second station. (f) There is such a network and a simulation in which both stations accept a packet 100 seconds after the start, send it at once, and no satellite ever passes one up.", "quantifier": "for all executions of networks with such channels, traffic, receivers (None, Aloha, CRDSA), queues, launched satellites and byte orders; (a), (d) for all positions and all times; (f) existence", "why_tests_cant": "A run of the example shows the traffic of one schedule of pings over its seven days; that no instant admits receptions at both stations, for any traffic and in every period, cannot be sampled.", "anchors": ["examples/sputping.cc:66-114", "model/ground-sat-success-elevation.cc:45-109", "model/ground-sat-channel.cc:94-167", "model/circular-orbit.cc:189-254", "helper/constellation-helper.cc:52-109"]}
{"id": "C109", "title": "A CRDSA receiver passes a packet up less than two frames after a busy period with one of its replicas, and four frames after the MAC got it", "statement": "A packet lost in a collision may be recovered arbitrarily late after its only frame has ended (for every N, there is a history in which it is more than N ticks). What bounds the delay are the busy periods: (a) if receptions of one packet do not coincide, whatever a CRDSA receiver passes up at t is passed up when its own frame ends, or there is an instant hi, t < hi + 2F (F the CRDSA frame), such that from the start of one of its replicas until hi something was being received all the time; (b) so if within S ticks of the start of every frame there is an instant at which nothing is received, t is at most S + 2F after the start of a replica; (c) with frames in slots, each ending before its slot, t is less than 2F after the end of the slot of a replica. (d) Hence in networks where stations with CRDSA MACs send any number of replicas to satellites with CRDSA receivers, delays to satellite d being in [lo, hi] and frames shorter than the slot by more than hi - lo, whatever satellite d passes up was handed to the MAC of a station at some a with a + lo <= t < a + 4F + lo, before the end of the third CRDSA frame, and (e) with queues for K packets, given to Send less than K (2F + slot) + 4F + lo before. (f) The bound 2F is sharp: one tick later the packet is not recovered.", "quantifier": "for all histories of receptions and all executions of such networks, traffic, slot choices, numbers of replicas and power rules; (f) concrete histories", "why_tests_cant": "The delay depends on the whole pattern of collisions and on what the receiver still remembers; a test sees the delays of a few schedules, not that none exceeds the bound.", "anchors": ["model/mac/crdsa-mac-model.cc:152-237", "model/mac/crdsa-mac-model.cc:239-278", "model/mac/crdsa-mac-model.cc:319-424", "model/mac/private/busy-period.h:35-69", "model/ground-sta-net-device.cc:361-431"]}
{"id": "C110", "title": "The program intermittent-communication.cc writes exactly one line per second for a week, each with the true extremes so far", "statement": "(a) For any two nodes with positions at all times, any period and any time of Simulator::Stop, the run ends after N + 1 events with exactly N lines, N being the number of multiples of the period before the stop (the call due at the stop itself does not run, as Stop was scheduled first); the k-th line is written at k periods and shows the distance then, and as minimum and maximum the least and the greatest of the distances at 0, 1, ..., k periods (never an infinity). (b) Without a mobility model the first call dereferences a null pointer. (c) For the program itself: 604800 lines, one for every second of the week, all distances between 220 and 13022 km, the minimum more than 1000 km during the first 450 seconds, the maximum always more than 1000 km and more than 9700 km from 4022 seconds on, the minimum less than 560 km from 11541 seconds on. (d) 11541 seconds after the start the first satellite of vostping.cc (the same orbit) is in reach of the school: the distance model with its default of 1000 km lets frames through both ways, so the silence of C107 ends.", "quantifier": "for all positions of the nodes over time, periods and times of the stop; (c) for all lines of the program's run", "why_tests_cant": "One run of the program shows the lines of one orbit; that minimum and maximum are right for every movement, and that the last second of the week is not shown, does not follow from reading 604800 lines.", "anchors": ["examples/intermittent-communication.cc:47-69", "examples/intermittent-communication.cc:71-112"]}
{"id": "C111", "title": "A CRDSA receiver passes up everything an Aloha receiver would, and nothing more when there are neither replicas nor captured frames", "statement": "Let a CRDSA receiver and an Aloha receiver hear the same frames with the same powers at the same times. (a) Whatever the Aloha receiver passes up, the CRDSA receiver passes up too, and not later (whatever replicas, powers, SIR rule, frame length and order of simultaneous events, and however much has been forgotten meanwhile). (b) If every packet is received once, the powers are such that no frame of a collision is captured (as with the default SIR threshold, whatever the powers), and ends run before starts of the same tick, the CRDSA receiver does not fail and passes up exactly what the Aloha receiver does, at the same times. (c) Both conditions are needed: with one replica a packet that Aloha loses is recovered, and without replicas a packet is recovered if the other one of its collision is captured.", "quantifier": "for all histories of receptions, powers, SIR rules and frame lengths; (c) concrete histories", "why_tests_cant": "The comparison is between two programs on every input; a test compares them on the schedules it runs.", "anchors": ["model/mac/crdsa-mac-model.cc:239-278", "model/mac/crdsa-mac-model.cc:319-424", "model/mac/aloha-mac-model.cc:98-168"]}
{"id": "C112", "title": "Both stations of examples/sputping.cc get contact to the satellites that they address", "statement": "In the example's constellation (two planes of one satellite, 250 km, 60 degrees) and with the default minimum elevation of 25 degrees: (a) 97330 s after the start the school sees the satellite launched first at 25 degrees or more, and 47811 s after the start the other station sees the satellite launched second at 25 degrees or more; these are the satellites the program makes the stations address. (b) The channel then lets frames through, whatever else the network does. (c) With pass-through receivers, in any execution after which nothing is left to do, every packet put on the air by these stations for these satellites at these instants has been passed up, exactly after the propagation delay plus the duration of the frame. (d) Such executions exist, for both stations in one run. So the silence shown in C108 is not permanent.", "quantifier": "(a) exact real positions, debug and release builds; (b), (c) all networks with the example's constellation, places and success model, all operations, all executions; (d) a concrete execution", "why_tests_cant": "A test reports the rounded elevation of one run; that contact occurs for the exact orbit, and that every frame sent then arrives whatever else is on the air, is a statement about all executions.", "anchors": ["examples/sputping.cc:66-114", "model/ground-sat-success-elevation.cc:45-109", "model/ground-sat-channel.cc:94-167", "model/circular-orbit.cc:189-254", "helper/constellation-helper.cc:52-109"]}
{"id": "C113", "title": "The MAC models do not depend on the absolute simulation time", "statement": "(a) If an Aloha, CRDSA or pass-through receiver hears the same frames k ticks later, in the same order of events, it passes up the same packets exactly k ticks later; one history is possible if and only if the other is, and a CRDSA receiver fails (C25) in one if and only if it fails in the other, in the same way. In particular, cleaning up memories older than two frames behaves near time zero as it does later. (b) A slotted Aloha station that is given a packet a whole number of slots later waits as long; a CRDSA station that is given a packet a whole number of frames later uses the same delays for its replicas, if the shuffle and the number of replicas are the same. (c) A shift by less than a slot does change the wait.", "quantifier": "for all histories, shifts, powers, SIR rules, slot and frame lengths, and orders of simultaneous events", "why_tests_cant": "The claim relates two runs on every input; tests start at time zero and compare single runs with fixed expectations.", "anchors": ["model/mac/aloha-mac-model.cc:57-168", "model/mac/crdsa-mac-model.cc:164-278", "model/mac/crdsa-mac-model.cc:319-424", "model/mac/none-mac-model.cc:44-77"]}
