{
 "claims": [
  {
   "property": "C01",
   "status": "proved",
   "theorems": [
    "Icarus.C01_getters",
    "Icarus.C01_wire_format",
    "Icarus.C01_roundtrip",
    "Icarus.C01_decode_total",
    "Icarus.C01_equality",
    "Icarus.C01_eq_iff",
    "Icarus.C01_refused",
    "Icarus.C01_release_wrong_length_is_ub"
   ],
   "note": "Byte-level model for either host byte order. Refusal of foreign addresses is by assertion (debug builds); in release builds a wrong length reads uninitialised bytes, stated by C01_release_wrong_length_is_ub."
  },
  {
   "property": "C02",
   "status": "proved",
   "theorems": [
    "Icarus.C02_format",
    "Icarus.C02_roundtrip",
    "Icarus.C02_injective",
    "Icarus.C02_left_aligned_stream_misprints",
    "Icarus.C02_empty_field_is_ub"
   ],
   "note": "Round trip for streams in their default state; two theorems record what happens for a left-aligned stream and for empty fields."
  },
  {
   "property": "C03",
   "status": "proved",
   "theorems": [
    "Icarus.C03_lookup",
    "Icarus.C03_addresses_distinct",
    "Icarus.C03_empty_position",
    "Icarus.C03_add_outcome",
    "Icarus.C03_fails_beyond_16_bits"
   ],
   "note": "For every sequence of successful registrations; the 16-bit limit on plane and index numbers is a hypothesis, and C03_fails_beyond_16_bits shows it is needed."
  },
  {
   "property": "C04",
   "status": "proved",
   "theorems": [
    "Icarus.C04_size_and_listing"
   ],
   "note": ""
  },
  {
   "property": "C05",
   "status": "proved",
   "theorems": [
    "Icarus.C05_closest"
   ],
   "note": ""
  },
  {
   "property": "C06",
   "status": "partial",
   "theorems": [
    "Icarus.C06_enumeration_partial",
    "Icarus.C06_index_size_is_ub",
    "Icarus.C06_claim_false"
   ],
   "note": "The claim as stated is false of the code (index = size passes the guard; sparse constellations return null): negation proved; enumeration proved for complete constellations."
  },
  {
   "property": "C07",
   "status": "partial",
   "theorems": [
    "Icarus.C07_range_partial",
    "Icarus.C07_boundary_is_ub",
    "Icarus.C07_claim_false"
   ],
   "note": "False at the boundary (guards use <=): negation proved, together with the exact behaviour away from the boundary."
  },
  {
   "property": "C08",
   "status": "proved",
   "theorems": [
    "Icarus.C08_launch_order"
   ],
   "note": ""
  },
  {
   "property": "C09",
   "status": "partial",
   "theorems": [
    "Icarus.C09_overlaunch_partial",
    "Icarus.C09_overlaunch",
    "Icarus.C09_guard_never_fires",
    "Icarus.C09_claim_false"
   ],
   "note": "The claimed abort never happens: after planes*size launches the next launch is an out-of-range access; negation and actual behaviour proved."
  },
  {
   "property": "C10",
   "status": "proved",
   "theorems": [
    "Icarus.C10_orbital_elements",
    "Icarus.C10_equally_spaced"
   ],
   "note": "Angles are exact rationals (the code accumulates doubles)."
  },
  {
   "property": "C11",
   "status": "proved",
   "theorems": [
    "Icarus.C11_links_are_torus_grid",
    "Icarus.C11_install",
    "Icarus.C11_incomplete_is_ub"
   ],
   "note": "C11_incomplete_is_ub records that the completeness assertion does not catch unfilled positions."
  },
  {
   "property": "C12",
   "status": "proved",
   "theorems": [
    "Icarus.C12_devices_per_satellite"
   ],
   "note": ""
  },
  {
   "property": "C13",
   "status": "proved",
   "theorems": [
    "Icarus.C13_progress"
   ],
   "note": "Sizes are assumed to fit a C++ int."
  },
  {
   "property": "C14",
   "status": "proved",
   "theorems": [
    "Icarus.C14_delivery",
    "Icarus.C14_minimal",
    "Icarus.C14_shortest",
    "Icarus.C14_diameter",
    "Icarus.C14_strategy_delivers"
   ],
   "note": "C14_strategy_delivers runs the strategy code itself at every satellite of a correctly configured grid; the FIB contents and NFD's eligibility rule are hypotheses (GridNet), shown satisfiable by exampleNet_gridNet."
  },
  {
   "property": "C15",
   "status": "partial",
   "theorems": [
    "Icarus.C15_never_to_ground_partial",
    "Icarus.C15_choice_never_stops",
    "Icarus.C15_circulates",
    "Icarus.C15_claim_false",
    "Icarus.C15_single_plane_misroute"
   ],
   "note": "The claim (refusal) is false of the code: negation proved. Proved instead: with at least two planes and positions such a tag never selects the ground and always selects an existing neighbour; NFD's own loop detection is outside the model."
  },
  {
   "property": "C16",
   "status": "proved",
   "theorems": [
    "Icarus.C16_suppressed",
    "Icarus.C16_tagged",
    "Icarus.C16_tagged_grid",
    "Icarus.C16_untagged_new",
    "Icarus.C16_untagged_retransmission",
    "Icarus.C16_never_more_than_one",
    "Icarus.C16_application_next_hop_is_ub"
   ],
   "note": "NFD services (eligibility, suppression, out-records) are arbitrary. C16_tagged needs every eligible next hop to have a net device; C16_application_next_hop_is_ub shows the null dereference otherwise."
  },
  {
   "property": "C17",
   "status": "proved",
   "theorems": [
    "Icarus.C17_slotted",
    "Icarus.C17_unslotted"
   ],
   "note": "Contract of ns-3's 64.64 division (truncation) is assumed; no overflow of 64-bit time."
  },
  {
   "property": "C18",
   "status": "partial",
   "theorems": [
    "Icarus.C18_ends_first_partial",
    "Icarus.C18_no_coincidence_partial",
    "Icarus.C18_default_threshold",
    "Icarus.C18_finite_threshold",
    "Icarus.C18_tie_loses_isolated_frame",
    "Icarus.C18_tie_delivers_collided_frame",
    "Icarus.C18_claim_false"
   ],
   "note": "Proved when ends are processed before simultaneous starts, and under every event order when no frame starts at the tick another ends. Holds for every test that drops frames sharing a busy period (Drops): the default threshold with positive powers, a finite threshold above the spread of the powers, doubles (C84). The unrestricted claim is false: negation proved with two witnesses."
  },
  {
   "property": "C19",
   "status": "proved",
   "theorems": [
    "Icarus.C19_idle_memoryless",
    "Icarus.C19_interference_assigned"
   ],
   "note": "For every event order."
  },
  {
   "property": "C20",
   "status": "proved",
   "theorems": [
    "Icarus.C20_capture",
    "Icarus.C20_linear",
    "Icarus.C20_powers_positive"
   ],
   "note": "Exact real arithmetic; starts at the tick of another frame's end are processed after it (the other order is covered by the C18 witnesses)."
  },
  {
   "property": "C21",
   "status": "proved",
   "theorems": [
    "Icarus.C21_replicas",
    "Icarus.C21_every_choice",
    "Icarus.C21_too_many"
   ],
   "note": "The shuffle is any permutation of the slot table (proved of std::shuffle in C85); every selection of slots is attained by some shuffle; more replicas than slots is an out-of-range index."
  },
  {
   "property": "C22",
   "status": "proved",
   "theorems": [
    "Icarus.C22_never_zero_probability",
    "Icarus.C22_interval",
    "Icarus.C22_total",
    "Icarus.C22_abort_iff",
    "Icarus.C22_distribution"
   ],
   "note": "Coefficients over an ordered field instead of doubles; the distribution statement is over Lebesgue measure on [0,1)."
  },
  {
   "property": "C23",
   "status": "proved",
   "theorems": [
    "Icarus.C23_at_most_once",
    "Icarus.C23_once_per_transmission"
   ],
   "note": "For every history of the receiver machine. Second theorem assumes that two receptions of one uid never coincide (a sender is half-duplex)."
  },
  {
   "property": "C24",
   "status": "proved",
   "theorems": [
    "Icarus.C24_terminates",
    "Icarus.C24_cancellation",
    "Icarus.C24_repaired",
    "Icarus.C24_busy_period_end"
   ],
   "note": "Result of the code whenever it is defined (see C25); the version that erases every empty collision is always defined."
  },
  {
   "property": "C25",
   "status": "partial",
   "theorems": [
    "Icarus.C25_invalidated_iterator",
    "Icarus.C25_claim_false",
    "Icarus.C25_undefined_iff",
    "Icarus.C25_only_failure",
    "Icarus.C25_two_replicas",
    "Icarus.C25_two_replicas_defined"
   ],
   "note": "The claim is false: witness with three replicas. Exact condition per pass, and absence of the error for two replicas without capture. No capture means Drops: the code's test with the default threshold and positive powers, a finite threshold above the spread of the powers, or doubles within 156 dB (C84)."
  },
  {
   "property": "C26",
   "status": "proved",
   "theorems": [
    "Icarus.C26_bounded_memory"
   ],
   "note": "Expiry bounds and retention, at every busy-period end of every history in which receptions of one uid do not coincide."
  },
  {
   "property": "C27",
   "status": "proved",
   "theorems": [
    "Icarus.C27_send",
    "Icarus.C27_receive"
   ],
   "note": ""
  },
  {
   "property": "C28",
   "status": "proved",
   "theorems": [
    "Icarus.C28_uplink",
    "Icarus.C28_reaches_addressed",
    "Icarus.C28_no_constellation",
    "Icarus.C28_foreign_constellation"
   ],
   "note": "For every constellation history, success, delay and loss model. Release builds ignore the constellation number of the destination: C28_foreign_constellation."
  },
  {
   "property": "C29",
   "status": "partial",
   "theorems": [
    "Icarus.C29_absent_is_ub",
    "Icarus.C29_claim_false",
    "Icarus.C29_never_received_partial"
   ],
   "note": "The claim is false: C29_claim_false. What remains (partial): no reception is ever produced for an absent satellite."
  },
  {
   "property": "C30",
   "status": "proved",
   "theorems": [
    "Icarus.C30_downlink",
    "Icarus.C30_attach_needs_position"
   ],
   "note": ""
  },
  {
   "property": "C31",
   "status": "proved",
   "theorems": [
    "Icarus.C31_enumeration",
    "Icarus.C31_no_constellation",
    "Icarus.C31_incomplete"
   ],
   "note": "For complete constellations as stated; C31_incomplete records what happens otherwise."
  },
  {
   "property": "C32",
   "status": "proved",
   "theorems": [
    "Icarus.C32_attach",
    "Icarus.C32_attach_needs_position",
    "Icarus.C32_transmit",
    "Icarus.C32_incomplete",
    "Icarus.C32_unchecked_sender"
   ],
   "note": "For all attach histories. C32_unchecked_sender: the channel does not check that the sender is one of its ends."
  },
  {
   "property": "C33",
   "status": "proved",
   "theorems": [
    "Icarus.C33_general",
    "Icarus.C33_visibility",
    "Icarus.C33_symmetric",
    "Icarus.C33_needs_positions"
   ],
   "note": "Over exact reals. C33_general covers reported positions whose radius differs from the orbit radius."
  },
  {
   "property": "C34",
   "status": "partial",
   "theorems": [
    "Icarus.C34_refines",
    "Icarus.C34_once_in_order",
    "Icarus.C34_send_result",
    "Icarus.C34_handed_in_order",
    "Icarus.C34_replicas",
    "Icarus.C34_accepted_or_dropped",
    "Icarus.C34_dropped_never_sent",
    "Icarus.C34_crdsa_overlap",
    "Icarus.C34_crdsa_claim_false",
    "Icarus.C34_no_replica_blocks"
   ],
   "note": "Proved for MACs that transmit each frame once (pass-through, Aloha, CRDSA with one replica) as refinement of a first-in first-out sender; order of hand-over and set of transmissions proved for every MAC. False for CRDSA with two replicas (C34_crdsa_claim_false); with zero replicas the station blocks (C34_no_replica_blocks)."
  },
  {
   "property": "C35",
   "status": "proved",
   "theorems": [
    "Icarus.C35_fixed_at_send",
    "Icarus.C35_tracked"
   ],
   "note": "For every MAC including CRDSA and every interleaving; packets have different ids."
  },
  {
   "property": "C36",
   "status": "proved",
   "theorems": [
    "Icarus.C36_tracked_only",
    "Icarus.C36_others_ignored"
   ],
   "note": "For frames whose source is a satellite address (any other source trips an assertion in SatAddress::ConvertFrom, see C01_refused)."
  },
  {
   "property": "C37",
   "status": "proved",
   "theorems": [
    "Icarus.C37_notifications",
    "Icarus.C37_chain",
    "Icarus.C37_uri",
    "Icarus.C37_stale"
   ],
   "note": "C37_stale: a transport created after the first change, or a direct write of the attribute, leaves a wrong URI; the statement excludes these."
  },
  {
   "property": "C38",
   "status": "proved",
   "theorems": [
    "Icarus.C38_refines",
    "Icarus.C38_once_in_order",
    "Icarus.C38_accepted_or_dropped",
    "Icarus.C38_contents"
   ],
   "note": ""
  },
  {
   "property": "C39",
   "status": "proved",
   "theorems": [
    "Icarus.C39_refines",
    "Icarus.C39_once_in_order",
    "Icarus.C39_accepted_or_dropped",
    "Icarus.C39_dropped_never_sent"
   ],
   "note": ""
  },
  {
   "property": "C40",
   "status": "partial",
   "theorems": [
    "Icarus.C40_wrong_number",
    "Icarus.C40_claim_false",
    "Icarus.C40_numbers_used",
    "Icarus.C40_same_protocol_partial",
    "Icarus.C40_not_waiting_partial",
    "Icarus.C40_reception"
   ],
   "note": "The claim is false (C40_claim_false). C40_numbers_used says exactly which number each packet gets; it is the right one if all packets use the same number or the packet did not have to wait."
  },
  {
   "property": "C41",
   "status": "proved",
   "theorems": [
    "Icarus.C41_ground_tag",
    "Icarus.C41_sat_tag",
    "Icarus.C41_layout"
   ],
   "note": "Byte-level, both host byte orders."
  },
  {
   "property": "C42",
   "status": "proved",
   "theorems": [
    "Icarus.Tracker.C42_times",
    "Icarus.Tracker.C42_goes_on",
    "Icarus.Tracker.C42_disabled",
    "Icarus.Tracker.C42_nearest",
    "Icarus.Tracker.C42_no_failure",
    "Icarus.Tracker.C42_offset",
    "Icarus.Tracker.C42_device"
   ],
   "note": "Over every motion of the constellation and every time horizon. The offset is the value drawn from the uniform variable."
  },
  {
   "property": "C43",
   "status": "proved",
   "theorems": [
    "Icarus.Tracker.C43_visible",
    "Icarus.Tracker.C43_update",
    "Icarus.Tracker.C43_no_position",
    "Icarus.Tracker.C43_hole_is_ub",
    "Icarus.Tracker.C43_chain"
   ],
   "note": "For constellations whose every seat holds a satellite; C43_hole_is_ub shows that an empty seat is a null dereference."
  },
  {
   "property": "C44",
   "status": "proved",
   "theorems": [
    "Icarus.Orbit.C44_sphere",
    "Icarus.Orbit.C44_sharp"
   ],
   "note": "Exact real arithmetic."
  },
  {
   "property": "C45",
   "status": "proved",
   "theorems": [
    "Icarus.Orbit.C45_position",
    "Icarus.Orbit.C45_uniform",
    "Icarus.Orbit.C45_same_plane",
    "Icarus.Orbit.C45_kepler",
    "Icarus.Orbit.C45_periodic",
    "Icarus.Orbit.C45_no_orbit"
   ],
   "note": "Exact real arithmetic."
  },
  {
   "property": "C46",
   "status": "proved",
   "theorems": [
    "Icarus.Orbit.C46_rotated",
    "Icarus.Orbit.C46_height",
    "Icarus.Orbit.C46_distances",
    "Icarus.Orbit.C46_before_launch"
   ],
   "note": "Exact real arithmetic. ns-3's CartesianToGeographicCoordinates/GeographicToCartesianCoordinates on the sphere are modelled too."
  },
  {
   "property": "C47",
   "status": "proved",
   "theorems": [
    "Icarus.Orbit.C47_raw",
    "Icarus.Orbit.C47_reported",
    "Icarus.Orbit.C47_other_radius"
   ],
   "note": "Exact real arithmetic; C47_other_radius shows that the formula is inexact for other ground radii."
  },
  {
   "property": "C48",
   "status": "proved",
   "theorems": [
    "Icarus.Orbit.C48_sin",
    "Icarus.Orbit.C48_zenith",
    "Icarus.Orbit.C48_horizon",
    "Icarus.Orbit.C48_rotation",
    "Icarus.Orbit.C48_undefined"
   ],
   "note": "Exact real arithmetic."
  },
  {
   "property": "C49",
   "status": "proved",
   "theorems": [
    "Icarus.SuccessModel.C49_threshold",
    "Icarus.SuccessModel.C49_symmetric",
    "Icarus.SuccessModel.C49_monotone",
    "Icarus.SuccessModel.C49_abort"
   ],
   "note": "Exact real arithmetic."
  },
  {
   "property": "C50",
   "status": "partial",
   "theorems": [
    "Icarus.SuccessModel.C50_threshold",
    "Icarus.SuccessModel.C50_abort",
    "Icarus.SuccessModel.C50_symmetric_partial",
    "Icarus.SuccessModel.C50_claim_false"
   ],
   "note": "The unrestricted claim is false: between two satellites the order of the arguments matters (C50_claim_false). Proved unless both nodes are satellites."
  },
  {
   "property": "C51",
   "status": "proved",
   "theorems": [
    "Icarus.Orbit.C51_accepted",
    "Icarus.Orbit.C51_crossing_near",
    "Icarus.Orbit.C51_precision",
    "Icarus.Orbit.C51_first_window",
    "Icarus.Orbit.C51_endless",
    "Icarus.Orbit.C51_never_close"
   ],
   "note": "The root finder is an arbitrary function with the stated contract."
  },
  {
   "property": "C52",
   "status": "proved",
   "theorems": [
    "Icarus.Traffic.C52_frame",
    "Icarus.Traffic.C52_rate_and_budget",
    "Icarus.Traffic.C52_link_rate",
    "Icarus.Traffic.C52_time",
    "Icarus.Traffic.C52_wraps",
    "Icarus.Traffic.C52_header_too_long",
    "Icarus.Traffic.C52_bandwidth_500"
   ],
   "note": "Frame duration, bit rate, payload budget and link rate for all valid LoRa parameters; the excluded parameter choices are proved to wrap or to be undefined."
  },
  {
   "property": "C53",
   "status": "proved",
   "theorems": [
    "Icarus.Traffic.C53_cycle",
    "Icarus.Traffic.C53_one_packet",
    "Icarus.Traffic.C53_off_positive",
    "Icarus.Traffic.C53_off_positive_below_max",
    "Icarus.Traffic.C53_rate_zero",
    "Icarus.Traffic.C53_sizes_wrap"
   ],
   "note": "On/off traffic parameters; sizes fit 32 bits and the rate is positive, both shown necessary."
  },
  {
   "property": "C54",
   "status": "proved",
   "theorems": [
    "Icarus.IcarusHelper.C54_install",
    "Icarus.IcarusHelper.C54_distinct",
    "Icarus.IcarusHelper.C54_channel_count",
    "Icarus.IcarusHelper.C54_satellite_twice",
    "Icarus.IcarusHelper.C54_ground_twice"
   ],
   "note": "Installation on distinct nodes with enough seats; installing a node twice is proved to go wrong."
  },
  {
   "property": "C55",
   "status": "proved",
   "theorems": [
    "Icarus.Uplink.C55_uplink",
    "Icarus.Uplink.C55_drops",
    "Icarus.Uplink.C55_station",
    "Icarus.Uplink.C55_receiver",
    "Icarus.Uplink.C55_progress"
   ],
   "note": "Composition of all stations, the channel and all receivers, every interleaving; stations track launched satellites."
  },
  {
   "property": "C56",
   "status": "proved",
   "theorems": [
    "Icarus.C56_decodes_exactly_peelable"
   ],
   "note": "Whole-history refinement; assumes no capture, frame ends before frame starts of the same tick and receptions of one uid not coinciding; holds for the code (where defined, see C25) and for the repaired version. No capture: Drops, as for C25."
  },
  {
   "property": "C57",
   "status": "partial",
   "theorems": [
    "Icarus.Orbit.C57_equator_partial",
    "Icarus.Orbit.C57_misplaced",
    "Icarus.Orbit.C57_conversion_ends",
    "Icarus.Orbit.C57_claim_false",
    "Icarus.Orbit.C57_close_partial",
    "Icarus.Orbit.C57_surface"
   ],
   "note": "The claim is false off the equator: C57_misplaced proves it fails for every node there. Proved on the equator. For all nodes C57_close_partial bounds the misplacement by 43.5 km, and C57_surface says what it is for stations on the ellipsoid."
  },
  {
   "property": "C58",
   "status": "partial",
   "theorems": [
    "Icarus.Uplink.C58_aloha_uplink_partial"
   ],
   "note": "As C55 with Aloha receivers; excludes frames starting exactly when another ends (C18). Threshold: Drops, as for C18."
  },
  {
   "property": "C59",
   "status": "proved",
   "theorems": [
    "Icarus.Downlink.C59_satellite",
    "Icarus.Downlink.C59_station",
    "Icarus.Downlink.C59_downlink",
    "Icarus.Downlink.C59_drops",
    "Icarus.Downlink.C59_progress"
   ],
   "note": "All satellites, the channel and all stations run in one step machine. Delivered frames equal, as a multiset, the sum over satellites of what the spec `receipt` makes of the FIFO service of accepted packets; equality when nothing is scheduled, inclusion at any time. Events of different devices due at the same time may run in any order."
  },
  {
   "property": "C60",
   "status": "proved",
   "theorems": [
    "Icarus.IslNet.C60_sender",
    "Icarus.IslNet.C60_receiver",
    "Icarus.IslNet.C60_link",
    "Icarus.IslNet.C60_drops",
    "Icarus.IslNet.C60_in_order",
    "Icarus.IslNet.C60_overtaking",
    "Icarus.IslNet.C60_progress",
    "Icarus.IslNet.C60_wired",
    "Icarus.IslNet.C60_neighbours",
    "Icarus.IslNet.C60_grid"
   ],
   "note": "All devices and channels run in one step machine; protocol numbers are those of C40 (`usedProtos`). Equality of delivered and expected frames as multisets when nothing is scheduled, inclusion at any time, equality as lists under the order condition. Events of different devices due at the same time may run in any order."
  },
  {
   "property": "C61",
   "status": "proved",
   "theorems": [
    "Icarus.Transport.C61_received",
    "Icarus.Transport.C61_sent",
    "Icarus.Transport.C61_frame_ub",
    "Icarus.Transport.C61_other_protocol",
    "Icarus.Transport.C61_track_ub",
    "Icarus.Transport.C61_construct"
   ],
   "note": "Step machine of the transports of a node with the protocol handlers and signal connections that refer to them; ns-3's Node and NFD's Transport base class are environment."
  },
  {
   "property": "C62",
   "status": "proved",
   "theorems": [
    "Icarus.Transport.C62_bytes",
    "Icarus.Transport.C62_packets",
    "Icarus.Transport.C62_bound",
    "Icarus.Transport.C62_zero",
    "Icarus.Transport.C62_no_queue"
   ],
   "note": "uint32 product modelled with UInt32."
  },
  {
   "property": "C63",
   "status": "proved",
   "theorems": [
    "Icarus.Scenario.C63_carried",
    "Icarus.Scenario.C63_ground",
    "Icarus.Scenario.C63_last_node_is_ub"
   ],
   "note": "Composes the models of C54, C11, C60 and C16."
  },
  {
   "property": "C64",
   "status": "proved",
   "theorems": [
    "Icarus.FaceUri.C64_mac",
    "Icarus.FaceUri.C64_ground_distinct",
    "Icarus.FaceUri.C64_remote",
    "Icarus.FaceUri.C64_built"
   ],
   "note": "Address types other than the unspecified type 0 and distinct from each other, as ns-3 registers them."
  },
  {
   "property": "C65",
   "status": "proved",
   "theorems": [
    "Icarus.GroundStaDetail.C65_ground_refines",
    "Icarus.GroundStaDetail.C65_ground_own_send",
    "Icarus.GroundStaDetail.C65_ground_new_packets",
    "Icarus.GroundStaDetail.C65_retry_asserts",
    "Icarus.GroundStaDetail.C65_twice",
    "Icarus.GroundStaDetail.C65_claim_false",
    "Icarus.Sat2GroundDetail.C65_down_no_fault",
    "Icarus.Sat2GroundDetail.C65_down_own_send",
    "Icarus.Sat2GroundDetail.C65_down_new_packets",
    "Icarus.Sat2GroundDetail.C65_down_retry_asserts"
   ],
   "note": "Stated with the condition on callers; the claim without it is refuted. Packets used by one device at a time."
  },
  {
   "property": "C66",
   "status": "proved",
   "theorems": [
    "Icarus.GroundStaDetail.C66_ground",
    "Icarus.GroundStaDetail.C66_ground_complete",
    "Icarus.Sat2GroundDetail.C66_down",
    "Icarus.SatNetDetail.C66_isl"
   ],
   "note": "Transmit-side sources only."
  },
  {
   "property": "C67",
   "status": "proved",
   "theorems": [
    "Icarus.Orbit.C67_launched",
    "Icarus.Orbit.C67_distance",
    "Icarus.Orbit.C67_up",
    "Icarus.Orbit.C67_always_never",
    "Icarus.Orbit.C67_in_plane",
    "Icarus.Orbit.C67_250km",
    "Icarus.Orbit.C67_regular",
    "Icarus.Orbit.C67_seam",
    "Icarus.Orbit.C67_all_alike",
    "Icarus.Orbit.C67_claim_false",
    "Icarus.Orbit.C67_isl_grid",
    "Icarus.Orbit.C67_ground2groundping"
   ],
   "note": "Real arithmetic instead of double. C67_claim_false refutes that all links between planes move alike."
  },
  {
   "property": "C68",
   "status": "proved",
   "theorems": [
    "Icarus.Uplink.C68_slotted",
    "Icarus.Uplink.C68_full_slot_lost",
    "Icarus.Uplink.C68_claim_false"
   ],
   "note": "Strict bound on the frame length; with frames that fill their slots the statement is false (witness). Threshold: Drops, as for C18."
  },
  {
   "property": "C69",
   "status": "proved",
   "theorems": [
    "Icarus.C69_memoryless",
    "Icarus.C69_rounds",
    "Icarus.C69_defined",
    "Icarus.C69_eras"
   ],
   "note": "A receiver between receptions behaves as new for unseen packets; decoding = peeling within each round for histories of any length (no capture, ends processed before starts of the same tick). No capture: Drops, as for C25."
  },
  {
   "property": "C70",
   "status": "proved",
   "theorems": [
    "Icarus.C70_receiver",
    "Icarus.Uplink.C70_crdsa",
    "Icarus.Uplink.C70_all_handed"
   ],
   "note": "All stations, channel, all satellites with CRDSA; any number of frames; decoding spelled out slot by slot; no capture, at most two replicas, strict guard time as in C68. No capture: Drops, as for C25."
  },
  {
   "property": "C71",
   "status": "proved",
   "theorems": [
    "Icarus.Orbit.C71_reach",
    "Icarus.Orbit.C71_pass",
    "Icarus.Orbit.C71_sets",
    "Icarus.Orbit.C71_leo",
    "Icarus.Orbit.C71_leo_2000",
    "Icarus.Orbit.C71_low",
    "Icarus.Orbit.C71_soon",
    "Icarus.Orbit.C71_tracker",
    "Icarus.Orbit.C71_stuck",
    "Icarus.Orbit.C71_stuck_exact",
    "Icarus.Orbit.C71_geostationary"
   ],
   "note": "Exact real arithmetic; the accuracy of the search is a hypothesis of C71_soon and C71_tracker."
  },
  {
   "property": "C72",
   "status": "proved",
   "theorems": [
    "Icarus.HelperConfig.C72_last_set",
    "Icarus.HelperConfig.C72_defaults",
    "Icarus.HelperConfig.C72_same_mac",
    "Icarus.HelperConfig.C72_device_attribute",
    "Icarus.HelperConfig.C72_device_attribute_fatal",
    "Icarus.HelperConfig.C72_wrong_kind",
    "Icarus.HelperConfig.C72_isl_success_model",
    "Icarus.HelperConfig.C72_isl_default_fails",
    "Icarus.HelperConfig.C72_promiscuous",
    "Icarus.HelperConfig.C72_sniffer",
    "Icarus.HelperConfig.C72_reset_claim_false"
   ],
   "note": "The behaviour of ns-3's ObjectFactory and TypeId is modelled from release 3.30 and not checked against its sources, which are not in the repository."
  },
  {
   "property": "C73",
   "status": "proved",
   "theorems": [
    "Icarus.Network.C73_parts",
    "Icarus.Network.C73_safe",
    "Icarus.Network.C73_one_address",
    "Icarus.Network.C73_route",
    "Icarus.Network.C73_latency",
    "Icarus.Network.C73_ground_to_ground",
    "Icarus.Network.C73_none_honest",
    "Icarus.Network.C73_aloha_honest",
    "Icarus.Network.C73_crdsa_honest"
   ],
   "note": "for CRDSA receivers the uplink transmission time is not part of the bound"
  },
  {
   "property": "C74",
   "status": "proved",
   "theorems": [
    "Icarus.Grid.C74_distance",
    "Icarus.Grid.C74_no_shorter",
    "Icarus.Grid.C74_diameter",
    "Icarus.Grid.C74_satellite_lost",
    "Icarus.Grid.C74_link_lost",
    "Icarus.Grid.C74_two_satellites"
   ],
   "note": ""
  },
  {
   "property": "C75",
   "status": "proved",
   "theorems": [
    "Icarus.Network.C75_latency",
    "Icarus.Network.C75_grid"
   ],
   "note": ""
  },
  {
   "property": "C76",
   "status": "proved",
   "theorems": [
    "Icarus.RxDetail.Ground.C76_ground",
    "Icarus.RxDetail.Ground.C76_ground_no_callback",
    "Icarus.RxDetail.Ground.C76_ground_receives",
    "Icarus.RxDetail.Isl.C76_isl",
    "Icarus.RxDetail.Isl.C76_isl_no_callback",
    "Icarus.RxDetail.Sat.C76_sat",
    "Icarus.RxDetail.Sat.C76_sat_total",
    "Icarus.RxDetail.Sat.C76_sat_no_callback",
    "Icarus.RxDetail.Ascii.C76_ascii",
    "Icarus.RxDetail.Ascii.C76_ascii_foreign",
    "Icarus.RxDetail.Ascii.C76_ascii_no_queue",
    "Icarus.RxDetail.Ascii.C76_ascii_derived"
   ],
   "note": "ns-3's trace connection and Config paths are modelled by their documented behaviour; the text of the lines is not modelled"
  },
  {
   "property": "C77",
   "status": "proved",
   "theorems": [
    "Icarus.C77_slotted",
    "Icarus.C77_slotted_mean",
    "Icarus.C77_slotted_limit",
    "Icarus.C77_pure",
    "Icarus.C77_pure_bounds",
    "Icarus.C77_pure_limit",
    "Icarus.C77_maximum"
   ],
   "note": "One frame per station, uniform choices of the hand-over tick; the pure case with ends processed before starts of the same tick (C18 is false otherwise). Threshold: Drops, as for C18."
  },
  {
   "property": "C78",
   "status": "proved",
   "theorems": [
    "Icarus.IcarusHelper.C78_base",
    "Icarus.IcarusHelper.C78_ground",
    "Icarus.IcarusHelper.C78_known",
    "Icarus.IcarusHelper.C78_single_only",
    "Icarus.IcarusHelper.C78_reached",
    "Icarus.IcarusHelper.C78_succeeds_iff",
    "Icarus.IcarusHelper.C78_one_by_one"
   ],
   "note": "All Install overloads in any sequence, several channels. One constellation helper; names do not change between calls."
  },
  {
   "property": "C79",
   "status": "proved",
   "theorems": [
    "Icarus.C79_uniform",
    "Icarus.C79_lower",
    "Icarus.C79_upper",
    "Icarus.C79_mean",
    "Icarus.C79_two_stations",
    "Icarus.C79_limit",
    "Icarus.C79_better"
   ],
   "note": "Counting over all orders of the slot tables (that std::shuffle reaches them equally often is C85); one frame, two replicas, no capture (Drops, as for C25)."
  },
  {
   "property": "C80",
   "status": "proved",
   "theorems": [
    "Icarus.Uplink.C80_refines",
    "Icarus.Uplink.C80_ends_first",
    "Icarus.Uplink.C80_progress",
    "Icarus.Uplink.C80_aloha",
    "Icarus.Uplink.C80_full_slots",
    "Icarus.Uplink.C80_claim_false",
    "Icarus.Uplink.C80_crdsa_full_slots"
   ],
   "note": "ns-3's rule that events of the same time run in the order of scheduling is part of the model; two events scheduled at the same time for the same time may run in any order. Frames shorter than the delays: refuted by C80_claim_false. Threshold: Drops, as for C18."
  },
  {
   "property": "C81",
   "status": "proved",
   "theorems": [
    "Icarus.Orbit.C81_defined",
    "Icarus.Orbit.C81_stays",
    "Icarus.Orbit.C81_straddles",
    "Icarus.Orbit.C81_not_late",
    "Icarus.Orbit.C81_one_second_early",
    "Icarus.Orbit.C81_just_risen",
    "Icarus.Orbit.C81_equator"
   ],
   "note": "GSL's Brent method is modelled from its published algorithm (the library is not in the repository), in exact arithmetic. That it converges within the thousand iterations allowed is a hypothesis where there is a change of sign, and proved where there is none."
  },
  {
   "property": "C82",
   "status": "proved",
   "theorems": [
    "Icarus.Orbit.C82_no_gap",
    "Icarus.Orbit.C82_half",
    "Icarus.Orbit.C82_sets",
    "Icarus.Orbit.C82_reach",
    "Icarus.Orbit.C82_never_late",
    "Icarus.Orbit.C82_no_third"
   ],
   "note": "GSL's Brent method as in C81; convergence of the second search is a hypothesis; exact real arithmetic"
  },
  {
   "property": "C83",
   "status": "proved",
   "theorems": [
    "Icarus.Orbit.C83_before_launch",
    "Icarus.Orbit.C83_launched",
    "Icarus.Orbit.C83_not_static",
    "Icarus.Orbit.C83_velocity",
    "Icarus.Orbit.C83_elevation",
    "Icarus.Orbit.C83_first_answer",
    "Icarus.Orbit.C83_latitude",
    "Icarus.Orbit.C83_out_of_reach"
   ],
   "note": "exact real arithmetic; conversion of the answer to nanoseconds not modelled"
  },
  {
   "property": "C84",
   "status": "proved",
   "theorems": [
    "Icarus.Double.C84_interval",
    "Icarus.Double.C84_error",
    "Icarus.Double.C84_same_count",
    "Icarus.Double.C84_total",
    "Icarus.Double.C84_total_fails",
    "Icarus.Double.C84_drops",
    "Icarus.Double.C84_default_threshold",
    "Icarus.Double.C84_aloha",
    "Icarus.Double.C84_crdsa",
    "Icarus.Double.C84_absorbed",
    "Icarus.Double.C84_capture"
   ],
   "note": "Rounding to nearest with an unbounded exponent (no overflow, no subnormal numbers). The capture theorem assumes the C library's log10 accurate to one part in 2^50."
  },
  {
   "property": "C85",
   "status": "proved",
   "theorems": [
    "Icarus.C85_draw",
    "Icarus.C85_permutes",
    "Icarus.C85_uniform",
    "Icarus.C85_every_order",
    "Icarus.C85_ends",
    "Icarus.C85_selected",
    "Icarus.C85_mean",
    "Icarus.C85_throughput",
    "Icarus.C85_generator"
   ],
   "note": "The library functions are those of libstdc++ 13 (headers, not part of the repository); the generator of ns-3 from its published code, in exact arithmetic. Uniformity is counting over all sequences of generator values."
  },
  {
   "property": "C86",
   "status": "proved",
   "theorems": [
    "Icarus.Orbit.C86_restores",
    "Icarus.Orbit.C86_no_memory",
    "Icarus.Orbit.C86_no_memory_again",
    "Icarus.Orbit.C86_error",
    "Icarus.Orbit.C86_once"
   ],
   "note": "The functions of the GNU Scientific Library are modelled as documented (the library is not in the repository); real arithmetic, so errors because of NaN or infinite function values do not occur."
  },
  {
   "property": "C87",
   "status": "proved",
   "theorems": [
    "Icarus.Scenario.C87_too_few",
    "Icarus.Scenario.C87_exact",
    "Icarus.Scenario.C87_too_many",
    "Icarus.Scenario.C87_ground_in_container",
    "Icarus.Scenario.C87_isl_vostping",
    "Icarus.Scenario.C87_complete_examples"
   ],
   "note": "All numbers of satellites and all containers; the failing cases are proved to fail as described."
  },
  {
   "property": "C88",
   "status": "proved",
   "theorems": [
    "Icarus.Geodetic.C88_converges",
    "Icarus.Geodetic.C88_inverse",
    "Icarus.Geodetic.C88_axis",
    "Icarus.Geodetic.C88_sphere",
    "Icarus.Geodetic.C88_near_pole",
    "Icarus.Geodetic.C88_altitude_claim_false",
    "Icarus.Geodetic.C88_ellipsoid"
   ],
   "note": "The error of the altitude near the poles is proved as a negation with a witness; exact real arithmetic."
  },
  {
   "property": "C89",
   "status": "proved",
   "theorems": [
    "Icarus.Orbit.C89_speed",
    "Icarus.Orbit.C89_speed_bound",
    "Icarus.Orbit.C89_nearly_nearest",
    "Icarus.Orbit.C89_always_nearest_claim_false"
   ],
   "note": "The claim that the tracked satellite is always the nearest one is proved false; exact real arithmetic."
  },
  {
   "property": "C90",
   "status": "proved",
   "theorems": [
    "Icarus.Orbit.C90_spacing",
    "Icarus.Orbit.C90_guard",
    "Icarus.Orbit.C90_gapless_claim_false",
    "Icarus.IslNet.C90_isl",
    "Icarus.Uplink.C90_uplink",
    "Icarus.Downlink.C90_downlink"
   ],
   "note": "Exact real arithmetic; ns-3's delay model and its conversion to ticks are assumptions stated in DESIGN.md."
  },
  {
   "property": "C91",
   "status": "proved",
   "theorems": [
    "Icarus.IslNet.C91_isl",
    "Icarus.Downlink.C91_downlink",
    "Icarus.Uplink.C91_uplink",
    "Icarus.Uplink.C91_ordered",
    "Icarus.Uplink.C91_delivered"
   ],
   "note": "Satellites with CRDSA receivers: the point is reached unless a receiver fails (see C70 for when it does not)."
  },
  {
   "property": "C92",
   "status": "proved",
   "theorems": [
    "Icarus.IslNet.C92_isl",
    "Icarus.Downlink.C92_downlink",
    "Icarus.Uplink.C92_uplink",
    "Icarus.Uplink.C92_ordered",
    "Icarus.Uplink.C92_crdsa"
   ],
   "note": ""
  },
  {
   "property": "C93",
   "status": "proved",
   "theorems": [
    "Icarus.Uplink.C93_slotted",
    "Icarus.Uplink.C93_full_slots",
    "Icarus.Uplink.C93_pure",
    "Icarus.Uplink.C93_crdsa",
    "Icarus.Uplink.C93_slotted_mean",
    "Icarus.Uplink.C93_pure_bounds",
    "Icarus.Uplink.C93_runs",
    "Icarus.Uplink.C93_runs_in_order",
    "Icarus.Uplink.C93_runs_crdsa"
   ],
   "note": ""
  },
  {
   "property": "C94",
   "status": "proved",
   "theorems": [
    "Icarus.QueueDelay.C94_wait",
    "Icarus.QueueDelay.C94_on_air",
    "Icarus.QueueDelay.C94_none",
    "Icarus.QueueDelay.C94_aloha",
    "Icarus.QueueDelay.C94_crdsa",
    "Icarus.QueueDelay.C94_none_tight",
    "Icarus.QueueDelay.C94_limit",
    "Icarus.QueueDelay.C94_reported",
    "Icarus.QueueDelay.C94_capacity_false",
    "Icarus.QueueDelay.C94_down",
    "Icarus.QueueDelay.C94_down_limit",
    "Icarus.QueueDelay.C94_isl",
    "Icarus.QueueDelay.C94_isl_limit"
   ],
   "note": "ns-3's DropTailQueue is external and modelled by its contract. The reported length can exceed the announced capacity: proved as a negation with witnesses."
  },
  {
   "property": "C95",
   "status": "proved",
   "theorems": [
    "Icarus.Network.C95_hop",
    "Icarus.Network.C95_journey",
    "Icarus.Network.C95_up",
    "Icarus.Network.C95_isl",
    "Icarus.Network.C95_down",
    "Icarus.Network.C95_packets",
    "Icarus.Network.C95_crdsa_late",
    "Icarus.Network.C95_crdsa_not_punctual"
   ],
   "note": "Exact time ticks; the propagation delays are parameters (C89/C90 say what they are). The delivery part on the uplink is for the receiver without medium access model; with the others frames may be lost by collisions."
  },
  {
   "property": "C96",
   "status": "proved",
   "theorems": [
    "Icarus.Geocast.C96_only",
    "Icarus.Geocast.C96_delivered"
   ],
   "note": "NFD itself is not modelled: that it carries out the strategy's decisions (and nothing else) for the tagged Interest is a hypothesis. The delivery part is for receivers without medium access model; with the others frames may be lost by collisions."
  },
  {
   "property": "C97",
   "status": "proved",
   "theorems": [
    "Icarus.Network.C97_rest",
    "Icarus.Network.C97_traffic"
   ],
   "note": "For receivers that cannot fail (NoneMacModel, AlohaMacModel); CrdsaMacModel's receiver fails in some executions (C25, C34), its traffic is in C92."
  },
  {
   "property": "C98",
   "status": "proved",
   "theorems": [
    "Icarus.Geocast.C98_runs",
    "Icarus.Geocast.C98_room",
    "Icarus.Geocast.C98_delivered",
    "Icarus.Geocast.C98_only"
   ],
   "note": "NFD is modelled by what it owes (`Geocast.Owes`): forwarding each tagged Interest once per satellite, immediately, to the face chosen by the modelled strategy. Times of processing in NFD are zero."
  },
  {
   "property": "C99",
   "status": "proved",
   "theorems": [
    "Icarus.Geocast.C99_runs",
    "Icarus.Geocast.C99_room",
    "Icarus.Geocast.C99_ping",
    "Icarus.Geocast.C99_only"
   ],
   "note": "NFD's PIT and the producers are modelled by what they owe (`Geocast.Owed`), in zero time; one Interest per name, no content store."
  },
  {
   "property": "C100",
   "status": "proved",
   "theorems": [
    "Icarus.TrackedNet.C100_parts",
    "Icarus.TrackedNet.C100_nearest",
    "Icarus.TrackedNet.C100_covered",
    "Icarus.TrackedNet.C100_runs",
    "Icarus.TrackedNet.C100_service",
    "Icarus.TrackedNet.C100_room"
   ],
   "note": "No one but the tracker assigns the tracked address in (b), (c), (e); the address tracked before the first call belongs to a launched satellite; exact reals; (d) is for every tracker whose calls find a launched satellite and a later next call (`Sane`), shown for periodic ones."
  },
  {
   "property": "C101",
   "status": "proved",
   "theorems": [
    "Icarus.TrackedNet.C101_safe",
    "Icarus.TrackedNet.C101_visible",
    "Icarus.TrackedNet.C101_delivered",
    "Icarus.TrackedNet.C101_service",
    "Icarus.TrackedNet.C101_stuck"
   ],
   "note": "Setting times at most delta late are a hypothesis (C71's `Faithful`), as is that a satellite can always be found (`Watching`); nobody but the tracker assigns the tracked address; exact reals. An example with four satellites meets the hypotheses for ever."
  },
  {
   "property": "C102",
   "status": "proved",
   "theorems": [
    "Icarus.Orbit.C102_rate",
    "Icarus.Orbit.C102_degree",
    "Icarus.TrackedNet.C102_open",
    "Icarus.TrackedNet.C102_needs",
    "Icarus.TrackedNet.C102_service"
   ],
   "note": "Exact reals; the trackers' errors as in C101. An example with four satellites, a link minimum of -0.01 rad and a tracker minimum of 0 meets all hypotheses."
  },
  {
   "property": "C103",
   "status": "proved",
   "theorems": [
    "Icarus.TrackedNet.C103_lost",
    "Icarus.TrackedNet.C103_same_minimum"
   ],
   "note": "(b) is a concrete counterexample in exact arithmetic with minimum elevation 0 on both sides; the example of C102 is the same set-up with a link minimum of -0.01 rad, where nothing is lost."
  },
  {
   "property": "C104",
   "status": "proved",
   "theorems": [
    "Icarus.Orbit.C104_skips",
    "Icarus.Orbit.C104_answers",
    "Icarus.Orbit.C104_debug",
    "Icarus.Orbit.C104_release",
    "Icarus.Orbit.C104_unfaithful",
    "Icarus.Orbit.C104_witness"
   ],
   "note": "The witness of (e) uses a root finder that returns the rising exactly; that Brent's method converges within 1000 iterations is a hypothesis of C104_answers. Exact arithmetic."
  },
  {
   "property": "C105",
   "status": "proved",
   "theorems": [
    "Icarus.Orbit.C105_search",
    "Icarus.Orbit.C105_lingers",
    "Icarus.Orbit.C105_update",
    "Icarus.Orbit.C105_witness"
   ],
   "note": "Convergence of the second call of the root finder within 1000 iterations, and for other than equatorial eastward orbits that no second pass ends within one period, are hypotheses. Exact arithmetic."
  },
  {
   "property": "C106",
   "status": "proved",
   "theorems": [
    "Icarus.Orbit.C106_covered",
    "Icarus.Orbit.C106_search",
    "Icarus.Orbit.C106_brent",
    "Icarus.Orbit.C106_update",
    "Icarus.Orbit.C106_run",
    "Icarus.Orbit.C106_witness"
   ],
   "note": "The root finder's answering when signs differ at the ends (Brent: convergence within 1000 iterations) is a hypothesis. Exact arithmetic; default parameters."
  },
  {
   "property": "C107",
   "status": "proved",
   "theorems": [
    "Icarus.Orbit.C107_far",
    "Icarus.Orbit.C107_most",
    "Icarus.TrackedNet.C107_up",
    "Icarus.TrackedNet.C107_down",
    "Icarus.TrackedNet.C107_vostping",
    "Icarus.TrackedNet.C107_first",
    "Icarus.TrackedNet.C107_witness"
   ],
   "note": "Exact arithmetic."
  },
  {
   "property": "C108",
   "status": "proved",
   "theorems": [
    "Icarus.Orbit.C108_slant",
    "Icarus.Orbit.C108_north",
    "Icarus.Orbit.C108_south",
    "Icarus.TrackedNet.C108_up",
    "Icarus.TrackedNet.C108_down",
    "Icarus.TrackedNet.C108_apart",
    "Icarus.TrackedNet.C108_sputping",
    "Icarus.TrackedNet.C108_first",
    "Icarus.TrackedNet.C108_witness"
   ],
   "note": "Exact arithmetic."
  },
  {
   "property": "C109",
   "status": "proved",
   "theorems": [
    "Icarus.Crdsa.C109_busy",
    "Icarus.Crdsa.C109_quiet",
    "Icarus.Crdsa.C109_slots",
    "Icarus.Crdsa.C109_sharp",
    "Icarus.Crdsa.C109_late",
    "Icarus.Uplink.C109_uplink",
    "Icarus.Uplink.C109_send"
   ],
   "note": ""
  },
  {
   "property": "C110",
   "status": "proved",
   "theorems": [
    "Icarus.Intermittent.C110_lines",
    "Icarus.Intermittent.C110_no_model",
    "Icarus.Intermittent.C110_program",
    "Icarus.Intermittent.C110_contact"
   ],
   "note": ""
  },
  {
   "property": "C111",
   "status": "proved",
   "theorems": [
    "Icarus.Crdsa.C111_never_worse",
    "Icarus.Crdsa.C111_no_replicas",
    "Icarus.Crdsa.C111_default_threshold",
    "Icarus.Crdsa.C111_gain",
    "Icarus.Crdsa.C111_capture"
   ],
   "note": ""
  },
  {
   "property": "C112",
   "status": "proved",
   "theorems": [
    "Icarus.Orbit.C112_school",
    "Icarus.Orbit.C112_elsewhere",
    "Icarus.TrackedNet.C112_contact",
    "Icarus.TrackedNet.C112_open",
    "Icarus.TrackedNet.C112_received",
    "Icarus.TrackedNet.C112_witness"
   ],
   "note": ""
  },
  {
   "property": "C113",
   "status": "proved",
   "theorems": [
    "Icarus.TimeShift.C113_aloha",
    "Icarus.TimeShift.C113_crdsa",
    "Icarus.TimeShift.C113_none",
    "Icarus.TimeShift.C113_slots",
    "Icarus.TimeShift.C113_frames",
    "Icarus.TimeShift.C113_slots_needed"
   ],
   "note": ""
  }
 ]
}