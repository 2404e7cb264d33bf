import Verif.Props.Alive
import Verif.Props.Aloha
import Verif.Props.Brent
import Verif.Props.ClosedLoop
import Verif.Props.Constellation
import Verif.Props.ConstellationHelper
import Verif.Props.Crdsa
import Verif.Props.CrdsaDelay
import Verif.Props.CrdsaFrame
import Verif.Props.CrdsaGain
import Verif.Props.CrdsaLong
import Verif.Props.CrdsaSlots
import Verif.Props.CrdsaThroughput
import Verif.Props.CrdsaUplink
import Verif.Props.DeviceDetail
import Verif.Props.DeviceDetailSat
import Verif.Props.Double
import Verif.Props.Downlink
import Verif.Props.Elevation
import Verif.Props.ElevationRate
import Verif.Props.EndToEnd
import Verif.Props.EquatorExample
import Verif.Props.EquatorStation
import Verif.Props.FaceUri
import Verif.Props.Fifo
import Verif.Props.GeoTag
import Verif.Props.Geocast
import Verif.Props.Geodetic
import Verif.Props.GridDistance
import Verif.Props.GridNetwork
import Verif.Props.GroundSatChannel
import Verif.Props.GroundSta
import Verif.Props.GroundStaRx
import Verif.Props.Gsl
import Verif.Props.HelperConfig
import Verif.Props.IcarusHelper
import Verif.Props.InstallCalls
import Verif.Props.Intermittent
import Verif.Props.Isl
import Verif.Props.IslNet
import Verif.Props.LinkDelay
import Verif.Props.LinkGeometry
import Verif.Props.MissedSetting
import Verif.Props.Motion
import Verif.Props.MotionLinks
import Verif.Props.Network
import Verif.Props.Observer
import Verif.Props.Orbit
import Verif.Props.PacketTag
import Verif.Props.Passes
import Verif.Props.Ping
import Verif.Props.Queries
import Verif.Props.QueueDelay
import Verif.Props.Realize
import Verif.Props.RepoTests
import Verif.Props.Rest
import Verif.Props.RxDetail
import Verif.Props.SameMinimum
import Verif.Props.Sat2GroundDevice
import Verif.Props.Sat2SatChannel
import Verif.Props.SatAddress
import Verif.Props.SatNetDevice
import Verif.Props.Scenario
import Verif.Props.Search
import Verif.Props.SetUp
import Verif.Props.Shuffle
import Verif.Props.Silence
import Verif.Props.SlottedUplink
import Verif.Props.SputContacts
import Verif.Props.Sputping
import Verif.Props.Throughput
import Verif.Props.TimeShift
import Verif.Props.TrackedElev
import Verif.Props.TrackedNet
import Verif.Props.Tracker
import Verif.Props.Traffic
import Verif.Props.Transport
import Verif.Props.Uplink
import Verif.Props.UplinkOrder
import Verif.Props.Visibility

/-! Axioms of every theorem named in MANIFEST.json, printed during the build. -/

#print axioms Icarus.C01_getters
#print axioms Icarus.C01_wire_format
#print axioms Icarus.C01_roundtrip
#print axioms Icarus.C01_decode_total
#print axioms Icarus.C01_equality
#print axioms Icarus.C01_eq_iff
#print axioms Icarus.C01_refused
#print axioms Icarus.C01_release_wrong_length_is_ub
#print axioms Icarus.C02_format
#print axioms Icarus.C02_roundtrip
#print axioms Icarus.C02_injective
#print axioms Icarus.C02_left_aligned_stream_misprints
#print axioms Icarus.C02_empty_field_is_ub
#print axioms Icarus.C03_lookup
#print axioms Icarus.C03_addresses_distinct
#print axioms Icarus.C03_empty_position
#print axioms Icarus.C03_add_outcome
#print axioms Icarus.C03_fails_beyond_16_bits
#print axioms Icarus.C04_size_and_listing
#print axioms Icarus.C05_closest
#print axioms Icarus.C06_enumeration_partial
#print axioms Icarus.C06_index_size_is_ub
#print axioms Icarus.C06_claim_false
#print axioms Icarus.C07_range_partial
#print axioms Icarus.C07_boundary_is_ub
#print axioms Icarus.C07_claim_false
#print axioms Icarus.C08_launch_order
#print axioms Icarus.C09_overlaunch_partial
#print axioms Icarus.C09_overlaunch
#print axioms Icarus.C09_guard_never_fires
#print axioms Icarus.C09_claim_false
#print axioms Icarus.C10_orbital_elements
#print axioms Icarus.C10_equally_spaced
#print axioms Icarus.C11_links_are_torus_grid
#print axioms Icarus.C11_install
#print axioms Icarus.C11_incomplete_is_ub
#print axioms Icarus.C12_devices_per_satellite
#print axioms Icarus.C13_progress
#print axioms Icarus.C14_delivery
#print axioms Icarus.C14_minimal
#print axioms Icarus.C14_shortest
#print axioms Icarus.C14_diameter
#print axioms Icarus.C14_strategy_delivers
#print axioms Icarus.C15_never_to_ground_partial
#print axioms Icarus.C15_choice_never_stops
#print axioms Icarus.C15_circulates
#print axioms Icarus.C15_claim_false
#print axioms Icarus.C15_single_plane_misroute
#print axioms Icarus.C16_suppressed
#print axioms Icarus.C16_tagged
#print axioms Icarus.C16_tagged_grid
#print axioms Icarus.C16_untagged_new
#print axioms Icarus.C16_untagged_retransmission
#print axioms Icarus.C16_never_more_than_one
#print axioms Icarus.C16_application_next_hop_is_ub
#print axioms Icarus.C17_slotted
#print axioms Icarus.C17_unslotted
#print axioms Icarus.C18_ends_first_partial
#print axioms Icarus.C18_no_coincidence_partial
#print axioms Icarus.C18_default_threshold
#print axioms Icarus.C18_finite_threshold
#print axioms Icarus.C18_tie_loses_isolated_frame
#print axioms Icarus.C18_tie_delivers_collided_frame
#print axioms Icarus.C18_claim_false
#print axioms Icarus.C19_idle_memoryless
#print axioms Icarus.C19_interference_assigned
#print axioms Icarus.C20_capture
#print axioms Icarus.C20_linear
#print axioms Icarus.C20_powers_positive
#print axioms Icarus.C21_replicas
#print axioms Icarus.C21_every_choice
#print axioms Icarus.C21_too_many
#print axioms Icarus.C22_never_zero_probability
#print axioms Icarus.C22_interval
#print axioms Icarus.C22_total
#print axioms Icarus.C22_abort_iff
#print axioms Icarus.C22_distribution
#print axioms Icarus.C23_at_most_once
#print axioms Icarus.C23_once_per_transmission
#print axioms Icarus.C24_terminates
#print axioms Icarus.C24_cancellation
#print axioms Icarus.C24_repaired
#print axioms Icarus.C24_busy_period_end
#print axioms Icarus.C25_invalidated_iterator
#print axioms Icarus.C25_claim_false
#print axioms Icarus.C25_undefined_iff
#print axioms Icarus.C25_only_failure
#print axioms Icarus.C25_two_replicas
#print axioms Icarus.C25_two_replicas_defined
#print axioms Icarus.C26_bounded_memory
#print axioms Icarus.C27_send
#print axioms Icarus.C27_receive
#print axioms Icarus.C28_uplink
#print axioms Icarus.C28_reaches_addressed
#print axioms Icarus.C28_no_constellation
#print axioms Icarus.C28_foreign_constellation
#print axioms Icarus.C29_absent_is_ub
#print axioms Icarus.C29_claim_false
#print axioms Icarus.C29_never_received_partial
#print axioms Icarus.C30_downlink
#print axioms Icarus.C30_attach_needs_position
#print axioms Icarus.C31_enumeration
#print axioms Icarus.C31_no_constellation
#print axioms Icarus.C31_incomplete
#print axioms Icarus.C32_attach
#print axioms Icarus.C32_attach_needs_position
#print axioms Icarus.C32_transmit
#print axioms Icarus.C32_incomplete
#print axioms Icarus.C32_unchecked_sender
#print axioms Icarus.C33_general
#print axioms Icarus.C33_visibility
#print axioms Icarus.C33_symmetric
#print axioms Icarus.C33_needs_positions
#print axioms Icarus.C34_refines
#print axioms Icarus.C34_once_in_order
#print axioms Icarus.C34_send_result
#print axioms Icarus.C34_handed_in_order
#print axioms Icarus.C34_replicas
#print axioms Icarus.C34_accepted_or_dropped
#print axioms Icarus.C34_dropped_never_sent
#print axioms Icarus.C34_crdsa_overlap
#print axioms Icarus.C34_crdsa_claim_false
#print axioms Icarus.C34_no_replica_blocks
#print axioms Icarus.C35_fixed_at_send
#print axioms Icarus.C35_tracked
#print axioms Icarus.C36_tracked_only
#print axioms Icarus.C36_others_ignored
#print axioms Icarus.C37_notifications
#print axioms Icarus.C37_chain
#print axioms Icarus.C37_uri
#print axioms Icarus.C37_stale
#print axioms Icarus.C38_refines
#print axioms Icarus.C38_once_in_order
#print axioms Icarus.C38_accepted_or_dropped
#print axioms Icarus.C38_contents
#print axioms Icarus.C39_refines
#print axioms Icarus.C39_once_in_order
#print axioms Icarus.C39_accepted_or_dropped
#print axioms Icarus.C39_dropped_never_sent
#print axioms Icarus.C40_wrong_number
#print axioms Icarus.C40_claim_false
#print axioms Icarus.C40_numbers_used
#print axioms Icarus.C40_same_protocol_partial
#print axioms Icarus.C40_not_waiting_partial
#print axioms Icarus.C40_reception
#print axioms Icarus.C41_ground_tag
#print axioms Icarus.C41_sat_tag
#print axioms Icarus.C41_layout
#print axioms Icarus.Tracker.C42_times
#print axioms Icarus.Tracker.C42_goes_on
#print axioms Icarus.Tracker.C42_disabled
#print axioms Icarus.Tracker.C42_nearest
#print axioms Icarus.Tracker.C42_no_failure
#print axioms Icarus.Tracker.C42_offset
#print axioms Icarus.Tracker.C42_device
#print axioms Icarus.Tracker.C43_visible
#print axioms Icarus.Tracker.C43_update
#print axioms Icarus.Tracker.C43_no_position
#print axioms Icarus.Tracker.C43_hole_is_ub
#print axioms Icarus.Tracker.C43_chain
#print axioms Icarus.Orbit.C44_sphere
#print axioms Icarus.Orbit.C44_sharp
#print axioms Icarus.Orbit.C45_position
#print axioms Icarus.Orbit.C45_uniform
#print axioms Icarus.Orbit.C45_same_plane
#print axioms Icarus.Orbit.C45_kepler
#print axioms Icarus.Orbit.C45_periodic
#print axioms Icarus.Orbit.C45_no_orbit
#print axioms Icarus.Orbit.C46_rotated
#print axioms Icarus.Orbit.C46_height
#print axioms Icarus.Orbit.C46_distances
#print axioms Icarus.Orbit.C46_before_launch
#print axioms Icarus.Orbit.C47_raw
#print axioms Icarus.Orbit.C47_reported
#print axioms Icarus.Orbit.C47_other_radius
#print axioms Icarus.Orbit.C48_sin
#print axioms Icarus.Orbit.C48_zenith
#print axioms Icarus.Orbit.C48_horizon
#print axioms Icarus.Orbit.C48_rotation
#print axioms Icarus.Orbit.C48_undefined
#print axioms Icarus.SuccessModel.C49_threshold
#print axioms Icarus.SuccessModel.C49_symmetric
#print axioms Icarus.SuccessModel.C49_monotone
#print axioms Icarus.SuccessModel.C49_abort
#print axioms Icarus.SuccessModel.C50_threshold
#print axioms Icarus.SuccessModel.C50_abort
#print axioms Icarus.SuccessModel.C50_symmetric_partial
#print axioms Icarus.SuccessModel.C50_claim_false
#print axioms Icarus.Orbit.C51_accepted
#print axioms Icarus.Orbit.C51_crossing_near
#print axioms Icarus.Orbit.C51_precision
#print axioms Icarus.Orbit.C51_first_window
#print axioms Icarus.Orbit.C51_endless
#print axioms Icarus.Orbit.C51_never_close
#print axioms Icarus.Traffic.C52_frame
#print axioms Icarus.Traffic.C52_rate_and_budget
#print axioms Icarus.Traffic.C52_link_rate
#print axioms Icarus.Traffic.C52_time
#print axioms Icarus.Traffic.C52_wraps
#print axioms Icarus.Traffic.C52_header_too_long
#print axioms Icarus.Traffic.C52_bandwidth_500
#print axioms Icarus.Traffic.C53_cycle
#print axioms Icarus.Traffic.C53_one_packet
#print axioms Icarus.Traffic.C53_off_positive
#print axioms Icarus.Traffic.C53_off_positive_below_max
#print axioms Icarus.Traffic.C53_rate_zero
#print axioms Icarus.Traffic.C53_sizes_wrap
#print axioms Icarus.IcarusHelper.C54_install
#print axioms Icarus.IcarusHelper.C54_distinct
#print axioms Icarus.IcarusHelper.C54_channel_count
#print axioms Icarus.IcarusHelper.C54_satellite_twice
#print axioms Icarus.IcarusHelper.C54_ground_twice
#print axioms Icarus.Uplink.C55_uplink
#print axioms Icarus.Uplink.C55_drops
#print axioms Icarus.Uplink.C55_station
#print axioms Icarus.Uplink.C55_receiver
#print axioms Icarus.Uplink.C55_progress
#print axioms Icarus.C56_decodes_exactly_peelable
#print axioms Icarus.Orbit.C57_equator_partial
#print axioms Icarus.Orbit.C57_misplaced
#print axioms Icarus.Orbit.C57_conversion_ends
#print axioms Icarus.Orbit.C57_claim_false
#print axioms Icarus.Orbit.C57_close_partial
#print axioms Icarus.Orbit.C57_surface
#print axioms Icarus.Uplink.C58_aloha_uplink_partial
#print axioms Icarus.Downlink.C59_satellite
#print axioms Icarus.Downlink.C59_station
#print axioms Icarus.Downlink.C59_downlink
#print axioms Icarus.Downlink.C59_drops
#print axioms Icarus.Downlink.C59_progress
#print axioms Icarus.IslNet.C60_sender
#print axioms Icarus.IslNet.C60_receiver
#print axioms Icarus.IslNet.C60_link
#print axioms Icarus.IslNet.C60_drops
#print axioms Icarus.IslNet.C60_in_order
#print axioms Icarus.IslNet.C60_overtaking
#print axioms Icarus.IslNet.C60_progress
#print axioms Icarus.IslNet.C60_wired
#print axioms Icarus.IslNet.C60_neighbours
#print axioms Icarus.IslNet.C60_grid
#print axioms Icarus.Transport.C61_received
#print axioms Icarus.Transport.C61_sent
#print axioms Icarus.Transport.C61_frame_ub
#print axioms Icarus.Transport.C61_other_protocol
#print axioms Icarus.Transport.C61_track_ub
#print axioms Icarus.Transport.C61_construct
#print axioms Icarus.Transport.C62_bytes
#print axioms Icarus.Transport.C62_packets
#print axioms Icarus.Transport.C62_bound
#print axioms Icarus.Transport.C62_zero
#print axioms Icarus.Transport.C62_no_queue
#print axioms Icarus.Scenario.C63_carried
#print axioms Icarus.Scenario.C63_ground
#print axioms Icarus.Scenario.C63_last_node_is_ub
#print axioms Icarus.FaceUri.C64_mac
#print axioms Icarus.FaceUri.C64_ground_distinct
#print axioms Icarus.FaceUri.C64_remote
#print axioms Icarus.FaceUri.C64_built
#print axioms Icarus.GroundStaDetail.C65_ground_refines
#print axioms Icarus.GroundStaDetail.C65_ground_own_send
#print axioms Icarus.GroundStaDetail.C65_ground_new_packets
#print axioms Icarus.GroundStaDetail.C65_retry_asserts
#print axioms Icarus.GroundStaDetail.C65_twice
#print axioms Icarus.GroundStaDetail.C65_claim_false
#print axioms Icarus.Sat2GroundDetail.C65_down_no_fault
#print axioms Icarus.Sat2GroundDetail.C65_down_own_send
#print axioms Icarus.Sat2GroundDetail.C65_down_new_packets
#print axioms Icarus.Sat2GroundDetail.C65_down_retry_asserts
#print axioms Icarus.GroundStaDetail.C66_ground
#print axioms Icarus.GroundStaDetail.C66_ground_complete
#print axioms Icarus.Sat2GroundDetail.C66_down
#print axioms Icarus.SatNetDetail.C66_isl
#print axioms Icarus.Orbit.C67_launched
#print axioms Icarus.Orbit.C67_distance
#print axioms Icarus.Orbit.C67_up
#print axioms Icarus.Orbit.C67_always_never
#print axioms Icarus.Orbit.C67_in_plane
#print axioms Icarus.Orbit.C67_250km
#print axioms Icarus.Orbit.C67_regular
#print axioms Icarus.Orbit.C67_seam
#print axioms Icarus.Orbit.C67_all_alike
#print axioms Icarus.Orbit.C67_claim_false
#print axioms Icarus.Orbit.C67_isl_grid
#print axioms Icarus.Orbit.C67_ground2groundping
#print axioms Icarus.Uplink.C68_slotted
#print axioms Icarus.Uplink.C68_full_slot_lost
#print axioms Icarus.Uplink.C68_claim_false
#print axioms Icarus.C69_memoryless
#print axioms Icarus.C69_rounds
#print axioms Icarus.C69_defined
#print axioms Icarus.C69_eras
#print axioms Icarus.C70_receiver
#print axioms Icarus.Uplink.C70_crdsa
#print axioms Icarus.Uplink.C70_all_handed
#print axioms Icarus.Orbit.C71_reach
#print axioms Icarus.Orbit.C71_pass
#print axioms Icarus.Orbit.C71_sets
#print axioms Icarus.Orbit.C71_leo
#print axioms Icarus.Orbit.C71_leo_2000
#print axioms Icarus.Orbit.C71_low
#print axioms Icarus.Orbit.C71_soon
#print axioms Icarus.Orbit.C71_tracker
#print axioms Icarus.Orbit.C71_stuck
#print axioms Icarus.Orbit.C71_stuck_exact
#print axioms Icarus.Orbit.C71_geostationary
#print axioms Icarus.HelperConfig.C72_last_set
#print axioms Icarus.HelperConfig.C72_defaults
#print axioms Icarus.HelperConfig.C72_same_mac
#print axioms Icarus.HelperConfig.C72_device_attribute
#print axioms Icarus.HelperConfig.C72_device_attribute_fatal
#print axioms Icarus.HelperConfig.C72_wrong_kind
#print axioms Icarus.HelperConfig.C72_isl_success_model
#print axioms Icarus.HelperConfig.C72_isl_default_fails
#print axioms Icarus.HelperConfig.C72_promiscuous
#print axioms Icarus.HelperConfig.C72_sniffer
#print axioms Icarus.HelperConfig.C72_reset_claim_false
#print axioms Icarus.Network.C73_parts
#print axioms Icarus.Network.C73_safe
#print axioms Icarus.Network.C73_one_address
#print axioms Icarus.Network.C73_route
#print axioms Icarus.Network.C73_latency
#print axioms Icarus.Network.C73_ground_to_ground
#print axioms Icarus.Network.C73_none_honest
#print axioms Icarus.Network.C73_aloha_honest
#print axioms Icarus.Network.C73_crdsa_honest
#print axioms Icarus.Grid.C74_distance
#print axioms Icarus.Grid.C74_no_shorter
#print axioms Icarus.Grid.C74_diameter
#print axioms Icarus.Grid.C74_satellite_lost
#print axioms Icarus.Grid.C74_link_lost
#print axioms Icarus.Grid.C74_two_satellites
#print axioms Icarus.Network.C75_latency
#print axioms Icarus.Network.C75_grid
#print axioms Icarus.RxDetail.Ground.C76_ground
#print axioms Icarus.RxDetail.Ground.C76_ground_no_callback
#print axioms Icarus.RxDetail.Ground.C76_ground_receives
#print axioms Icarus.RxDetail.Isl.C76_isl
#print axioms Icarus.RxDetail.Isl.C76_isl_no_callback
#print axioms Icarus.RxDetail.Sat.C76_sat
#print axioms Icarus.RxDetail.Sat.C76_sat_total
#print axioms Icarus.RxDetail.Sat.C76_sat_no_callback
#print axioms Icarus.RxDetail.Ascii.C76_ascii
#print axioms Icarus.RxDetail.Ascii.C76_ascii_foreign
#print axioms Icarus.RxDetail.Ascii.C76_ascii_no_queue
#print axioms Icarus.RxDetail.Ascii.C76_ascii_derived
#print axioms Icarus.C77_slotted
#print axioms Icarus.C77_slotted_mean
#print axioms Icarus.C77_slotted_limit
#print axioms Icarus.C77_pure
#print axioms Icarus.C77_pure_bounds
#print axioms Icarus.C77_pure_limit
#print axioms Icarus.C77_maximum
#print axioms Icarus.IcarusHelper.C78_base
#print axioms Icarus.IcarusHelper.C78_ground
#print axioms Icarus.IcarusHelper.C78_known
#print axioms Icarus.IcarusHelper.C78_single_only
#print axioms Icarus.IcarusHelper.C78_reached
#print axioms Icarus.IcarusHelper.C78_succeeds_iff
#print axioms Icarus.IcarusHelper.C78_one_by_one
#print axioms Icarus.C79_uniform
#print axioms Icarus.C79_lower
#print axioms Icarus.C79_upper
#print axioms Icarus.C79_mean
#print axioms Icarus.C79_two_stations
#print axioms Icarus.C79_limit
#print axioms Icarus.C79_better
#print axioms Icarus.Uplink.C80_refines
#print axioms Icarus.Uplink.C80_ends_first
#print axioms Icarus.Uplink.C80_progress
#print axioms Icarus.Uplink.C80_aloha
#print axioms Icarus.Uplink.C80_full_slots
#print axioms Icarus.Uplink.C80_claim_false
#print axioms Icarus.Uplink.C80_crdsa_full_slots
#print axioms Icarus.Orbit.C81_defined
#print axioms Icarus.Orbit.C81_stays
#print axioms Icarus.Orbit.C81_straddles
#print axioms Icarus.Orbit.C81_not_late
#print axioms Icarus.Orbit.C81_one_second_early
#print axioms Icarus.Orbit.C81_just_risen
#print axioms Icarus.Orbit.C81_equator
#print axioms Icarus.Orbit.C82_no_gap
#print axioms Icarus.Orbit.C82_half
#print axioms Icarus.Orbit.C82_sets
#print axioms Icarus.Orbit.C82_reach
#print axioms Icarus.Orbit.C82_never_late
#print axioms Icarus.Orbit.C82_no_third
#print axioms Icarus.Orbit.C83_before_launch
#print axioms Icarus.Orbit.C83_launched
#print axioms Icarus.Orbit.C83_not_static
#print axioms Icarus.Orbit.C83_velocity
#print axioms Icarus.Orbit.C83_elevation
#print axioms Icarus.Orbit.C83_first_answer
#print axioms Icarus.Orbit.C83_latitude
#print axioms Icarus.Orbit.C83_out_of_reach
#print axioms Icarus.Double.C84_interval
#print axioms Icarus.Double.C84_error
#print axioms Icarus.Double.C84_same_count
#print axioms Icarus.Double.C84_total
#print axioms Icarus.Double.C84_total_fails
#print axioms Icarus.Double.C84_drops
#print axioms Icarus.Double.C84_default_threshold
#print axioms Icarus.Double.C84_aloha
#print axioms Icarus.Double.C84_crdsa
#print axioms Icarus.Double.C84_absorbed
#print axioms Icarus.Double.C84_capture
#print axioms Icarus.C85_draw
#print axioms Icarus.C85_permutes
#print axioms Icarus.C85_uniform
#print axioms Icarus.C85_every_order
#print axioms Icarus.C85_ends
#print axioms Icarus.C85_selected
#print axioms Icarus.C85_mean
#print axioms Icarus.C85_throughput
#print axioms Icarus.C85_generator
#print axioms Icarus.Orbit.C86_restores
#print axioms Icarus.Orbit.C86_no_memory
#print axioms Icarus.Orbit.C86_no_memory_again
#print axioms Icarus.Orbit.C86_error
#print axioms Icarus.Orbit.C86_once
#print axioms Icarus.Scenario.C87_too_few
#print axioms Icarus.Scenario.C87_exact
#print axioms Icarus.Scenario.C87_too_many
#print axioms Icarus.Scenario.C87_ground_in_container
#print axioms Icarus.Scenario.C87_isl_vostping
#print axioms Icarus.Scenario.C87_complete_examples
#print axioms Icarus.Geodetic.C88_converges
#print axioms Icarus.Geodetic.C88_inverse
#print axioms Icarus.Geodetic.C88_axis
#print axioms Icarus.Geodetic.C88_sphere
#print axioms Icarus.Geodetic.C88_near_pole
#print axioms Icarus.Geodetic.C88_altitude_claim_false
#print axioms Icarus.Geodetic.C88_ellipsoid
#print axioms Icarus.Orbit.C89_speed
#print axioms Icarus.Orbit.C89_speed_bound
#print axioms Icarus.Orbit.C89_nearly_nearest
#print axioms Icarus.Orbit.C89_always_nearest_claim_false
#print axioms Icarus.Orbit.C90_spacing
#print axioms Icarus.Orbit.C90_guard
#print axioms Icarus.Orbit.C90_gapless_claim_false
#print axioms Icarus.IslNet.C90_isl
#print axioms Icarus.Uplink.C90_uplink
#print axioms Icarus.Downlink.C90_downlink
#print axioms Icarus.IslNet.C91_isl
#print axioms Icarus.Downlink.C91_downlink
#print axioms Icarus.Uplink.C91_uplink
#print axioms Icarus.Uplink.C91_ordered
#print axioms Icarus.Uplink.C91_delivered
#print axioms Icarus.IslNet.C92_isl
#print axioms Icarus.Downlink.C92_downlink
#print axioms Icarus.Uplink.C92_uplink
#print axioms Icarus.Uplink.C92_ordered
#print axioms Icarus.Uplink.C92_crdsa
#print axioms Icarus.Uplink.C93_slotted
#print axioms Icarus.Uplink.C93_full_slots
#print axioms Icarus.Uplink.C93_pure
#print axioms Icarus.Uplink.C93_crdsa
#print axioms Icarus.Uplink.C93_slotted_mean
#print axioms Icarus.Uplink.C93_pure_bounds
#print axioms Icarus.Uplink.C93_runs
#print axioms Icarus.Uplink.C93_runs_in_order
#print axioms Icarus.Uplink.C93_runs_crdsa
#print axioms Icarus.QueueDelay.C94_wait
#print axioms Icarus.QueueDelay.C94_on_air
#print axioms Icarus.QueueDelay.C94_none
#print axioms Icarus.QueueDelay.C94_aloha
#print axioms Icarus.QueueDelay.C94_crdsa
#print axioms Icarus.QueueDelay.C94_none_tight
#print axioms Icarus.QueueDelay.C94_limit
#print axioms Icarus.QueueDelay.C94_reported
#print axioms Icarus.QueueDelay.C94_capacity_false
#print axioms Icarus.QueueDelay.C94_down
#print axioms Icarus.QueueDelay.C94_down_limit
#print axioms Icarus.QueueDelay.C94_isl
#print axioms Icarus.QueueDelay.C94_isl_limit
#print axioms Icarus.Network.C95_hop
#print axioms Icarus.Network.C95_journey
#print axioms Icarus.Network.C95_up
#print axioms Icarus.Network.C95_isl
#print axioms Icarus.Network.C95_down
#print axioms Icarus.Network.C95_packets
#print axioms Icarus.Network.C95_crdsa_late
#print axioms Icarus.Network.C95_crdsa_not_punctual
#print axioms Icarus.Geocast.C96_only
#print axioms Icarus.Geocast.C96_delivered
#print axioms Icarus.Network.C97_rest
#print axioms Icarus.Network.C97_traffic
#print axioms Icarus.Geocast.C98_runs
#print axioms Icarus.Geocast.C98_room
#print axioms Icarus.Geocast.C98_delivered
#print axioms Icarus.Geocast.C98_only
#print axioms Icarus.Geocast.C99_runs
#print axioms Icarus.Geocast.C99_room
#print axioms Icarus.Geocast.C99_ping
#print axioms Icarus.Geocast.C99_only
#print axioms Icarus.TrackedNet.C100_parts
#print axioms Icarus.TrackedNet.C100_nearest
#print axioms Icarus.TrackedNet.C100_covered
#print axioms Icarus.TrackedNet.C100_runs
#print axioms Icarus.TrackedNet.C100_service
#print axioms Icarus.TrackedNet.C100_room
#print axioms Icarus.TrackedNet.C101_safe
#print axioms Icarus.TrackedNet.C101_visible
#print axioms Icarus.TrackedNet.C101_delivered
#print axioms Icarus.TrackedNet.C101_service
#print axioms Icarus.TrackedNet.C101_stuck
#print axioms Icarus.Orbit.C102_rate
#print axioms Icarus.Orbit.C102_degree
#print axioms Icarus.TrackedNet.C102_open
#print axioms Icarus.TrackedNet.C102_needs
#print axioms Icarus.TrackedNet.C102_service
#print axioms Icarus.TrackedNet.C103_lost
#print axioms Icarus.TrackedNet.C103_same_minimum
#print axioms Icarus.Orbit.C104_skips
#print axioms Icarus.Orbit.C104_answers
#print axioms Icarus.Orbit.C104_debug
#print axioms Icarus.Orbit.C104_release
#print axioms Icarus.Orbit.C104_unfaithful
#print axioms Icarus.Orbit.C104_witness
#print axioms Icarus.Orbit.C105_search
#print axioms Icarus.Orbit.C105_lingers
#print axioms Icarus.Orbit.C105_update
#print axioms Icarus.Orbit.C105_witness
#print axioms Icarus.Orbit.C106_covered
#print axioms Icarus.Orbit.C106_search
#print axioms Icarus.Orbit.C106_brent
#print axioms Icarus.Orbit.C106_update
#print axioms Icarus.Orbit.C106_run
#print axioms Icarus.Orbit.C106_witness
#print axioms Icarus.Orbit.C107_far
#print axioms Icarus.Orbit.C107_most
#print axioms Icarus.TrackedNet.C107_up
#print axioms Icarus.TrackedNet.C107_down
#print axioms Icarus.TrackedNet.C107_vostping
#print axioms Icarus.TrackedNet.C107_first
#print axioms Icarus.TrackedNet.C107_witness
#print axioms Icarus.Orbit.C108_slant
#print axioms Icarus.Orbit.C108_north
#print axioms Icarus.Orbit.C108_south
#print axioms Icarus.TrackedNet.C108_up
#print axioms Icarus.TrackedNet.C108_down
#print axioms Icarus.TrackedNet.C108_apart
#print axioms Icarus.TrackedNet.C108_sputping
#print axioms Icarus.TrackedNet.C108_first
#print axioms Icarus.TrackedNet.C108_witness
#print axioms Icarus.Crdsa.C109_busy
#print axioms Icarus.Crdsa.C109_quiet
#print axioms Icarus.Crdsa.C109_slots
#print axioms Icarus.Crdsa.C109_sharp
#print axioms Icarus.Crdsa.C109_late
#print axioms Icarus.Uplink.C109_uplink
#print axioms Icarus.Uplink.C109_send
#print axioms Icarus.Intermittent.C110_lines
#print axioms Icarus.Intermittent.C110_no_model
#print axioms Icarus.Intermittent.C110_program
#print axioms Icarus.Intermittent.C110_contact
#print axioms Icarus.Crdsa.C111_never_worse
#print axioms Icarus.Crdsa.C111_no_replicas
#print axioms Icarus.Crdsa.C111_default_threshold
#print axioms Icarus.Crdsa.C111_gain
#print axioms Icarus.Crdsa.C111_capture
#print axioms Icarus.Orbit.C112_school
#print axioms Icarus.Orbit.C112_elsewhere
#print axioms Icarus.TrackedNet.C112_contact
#print axioms Icarus.TrackedNet.C112_open
#print axioms Icarus.TrackedNet.C112_received
#print axioms Icarus.TrackedNet.C112_witness
#print axioms Icarus.TimeShift.C113_aloha
#print axioms Icarus.TimeShift.C113_crdsa
#print axioms Icarus.TimeShift.C113_none
#print axioms Icarus.TimeShift.C113_slots
#print axioms Icarus.TimeShift.C113_frames
#print axioms Icarus.TimeShift.C113_slots_needed
