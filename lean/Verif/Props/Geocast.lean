import Verif.Props.LinkDelay
import Verif.Props.Scenario

/-!
# Geocast through the whole network (C96)

The set-up made by the helpers (C63: devices, links, routes, the GeoTag strategy) together with the simulated network (C73, C95): where a tagged Interest goes, and when it
is there.
-/

set_option autoImplicit false

namespace Icarus
namespace Geocast
open GroundSatChannel GeoTag
open IslNet (End owner otherEnd)
open ConstellationHelper (create)
open Scenario (Host Nfd receive devices Carried satLinks Facts place placeOf)
open Network (Op Setup Launched Limits Short deadline Gets Hop Trip Relay sends World FromGround)

section
variable {N U D G V W P R : Type} [DecidableEq N]

/-- What the helpers make, on distinct nodes of which `n * s` have no position and the last one has one (see C63); `sat` are the nodes at the places of the grid. -/
def Made (h : Host) (n s : Nat) (sat : Nat × Nat → N) (nodes : List N) (sc : Scenario.Net N U) : Prop :=
  ∃ (cid ph : Nat) (alt inc : ℚ) (pos : N → Option U) (macs : Nat) (birds : List N),
    nodes.Nodup ∧ Fits16 cid n s ∧ (nodes.filter (fun x => (pos x).isNone)).length = n * s ∧ (∀ b ∈ birds, b ∈ nodes ∧ pos b = none) ∧ birds.length = n * s ∧
    (∀ x, nodes.getLast? = some x → pos x ≠ none) ∧
    (∀ p i, p < n → i < s → (nodes.filter (fun x => (pos x).isNone))[p * s + i]? = some (sat (p, i))) ∧
    Scenario.build h (create cid alt inc n s ph) pos macs nodes birds = .ok sc

theorem Made.facts {h : Host} {n s : Nat} {sat : Nat × Nat → N} {nodes : List N} {sc : Scenario.Net N U} (hm : Made h n s sat nodes sc) {t : Nat × Nat}
    (ht : t.1 < n ∧ t.2 < s) : ∃ st, sc = ⟨st, satLinks n s sat⟩ ∧ Facts h n s sat st nodes := by
  obtain ⟨cid, ph, alt, inc, pos, macs, birds, h1, h2, h3, h4, h5, h6, h7, h8⟩ := hm
  obtain ⟨st, b1, F⟩ := Scenario.facts_of_build h cid n s ph alt inc pos macs nodes birds h1 h2 h3 h4 h5 h6 sat h7
  rw [h8] at b1
  exact ⟨st, Outcome.ok.inj b1, F t ht.1 ht.2⟩

/-- The simulated satellites are those of the set-up: `node` is the node of a satellite, which carries its address on device 0; inter-satellite devices are the ends of the
links. -/
structure Realizes (sc : Scenario.Net N U) (net : Network.Net D G (End sc.links) V W P R) (node : D → N) : Prop where
  inj : Function.Injective node
  addr : ∀ d, ∃ dv, (devices sc (node d))[0]? = some (.icarus (.sat dv (net.satAddr d)))
  own : ∀ e, node (net.own e) = owner sc.links e

/-- Packet `p` comes in on face `i` of satellite `d` at time `u`: on face 0 from the ground, on the others from inter-satellite links. -/
def ComesIn (sc : Scenario.Net N U) (net : Network.Net D G (End sc.links) V W P R) (node : D → N) (s : Network.Sys D G (End sc.links) W R) (p : Nat)
    (d : D) (i u : Nat) : Prop :=
  (i = 0 ∧ FromGround net s d u p) ∨
    ∃ e proto, net.own e = d ∧ (devices sc (node d))[i]? = some (.isl e) ∧ (u, p, proto) ∈ (s.isl.rx e).delivered

/-- Packet `p` is accepted by the queue of the device of face `k` of satellite `d` at time `v`. -/
def GoesOut (sc : Scenario.Net N U) (node : D → N) (s : Network.Sys D G (End sc.links) W R) (p : Nat) (d : D) (k v : Nat) : Prop :=
  (∃ dv ad x, (devices sc (node d))[k]? = some (.icarus (.sat dv ad)) ∧ (v, x) ∈ (s.down.sats d).accepted ∧ x.pkt = p) ∨
    ∃ e y, (devices sc (node d))[k]? = some (.isl e) ∧ y ∈ (s.isl.tx e).accepted ∧ y.1 = v ∧ y.2.1.pkt = p

/-- Until `T`, NFD does what the strategy asks for within `H` ticks: packet `p`, an Interest tagged with `t`, is accepted by the device of the face to which the strategy sends it. -/
def Obeys (h : Host) (sc : Scenario.Net N U) (nodes : List N) (nfd : N → Nat → Nfd) (net : Network.Net D G (End sc.links) V W P R) (node : D → N)
    (s : Network.Sys D G (End sc.links) W R) (p : Nat) (t : Nat × Nat) (H T : Nat) : Prop :=
  ∀ d i u k, ComesIn sc net node s p d i u → receive h sc nodes (nfd (node d) i) (node d) i t = .ok [.sendInterest k] → u + H < T →
    ∃ v, GoesOut sc node s p d k v ∧ u ≤ v ∧ v ≤ u + H

/-- Satellites send packet `p`, an Interest tagged with `t`, only if the strategy asks for it. -/
def Loyal (h : Host) (sc : Scenario.Net N U) (nodes : List N) (nfd : N → Nat → Nfd) [Fintype G] [Fintype D] [DecidableEq G] [DecidableEq D]
    (net : Network.Net D G (End sc.links) V W P R) (node : D → N)
    (ops : List (Op D G (End sc.links) W)) (p : Nat) (t : Nat × Nat) : Prop :=
  ∀ pre o post s d v, ops = pre ++ o :: post → Network.exec net pre = some (.ok s) → sends net o = some (.sat d, v, p) →
    ∃ i u k, ComesIn sc net node s p d i u ∧ receive h sc nodes (nfd (node d) i) (node d) i t = .ok [.sendInterest k] ∧
      ((∃ len proto dv ad, o = .sat d (.send v p len proto) ∧ (devices sc (node d))[k]? = some (.icarus (.sat dv ad))) ∨
        ∃ len proto e, o = .isl (.tx e (.send v p len proto)) ∧ (devices sc (node d))[k]? = some (.isl e))

variable [Fintype G] [Fintype D] [DecidableEq G] [DecidableEq D]

/-- The strategy's decisions carried out in the network: a packet that has come in where the strategy code carries it over `m` links to the satellite `dt` is passed up by
every station that is tuned to `dt`, after at most `m + 1` deadlines and as many times of NFD. -/
theorem carried_out {h : Host} {sc : Scenario.Net N U} {nodes : List N} {nfd : N → Nat → Nfd} {net : Network.Net D G (End sc.links) V W P R} {node : D → N}
    (hre : Realizes sc net node) {w : World D G (End sc.links) W} {hist : List (Nat × Nat × D)} {as : List SatAddress}
    (hs : Setup net w (otherEnd sc.links) hist as) {B L C M : Nat} (hlim : Limits net w (otherEnd sc.links) B L C M) {ops : List (Op D G (End sc.links) W)}
    (hshort : Short ops L) {s : Network.Sys D G (End sc.links) W R} (hx : Network.exec net ops = some (.ok s)) {p : Nat} {t : Nat × Nat} {H T : Nat}
    (hob : Obeys h sc nodes nfd net node s p t H T) (hT1 : Downlink.due s.down T) (hT2 : IslNet.due s.isl T) {a0 : Nat}
    (hisl : ∀ e u, a0 ≤ u → u < T → w.isl.admit u e (otherEnd sc.links e) = true) {g : G} {dt : D} (hon : g ∈ net.chan.ground)
    (hopen : ∀ u, a0 ≤ u → u < T → w.ground.admit u g dt = true)
    (htr : Downlink.trackedAt (net.remote g) (Downlink.tracks g (ops.filterMap Network.toDown)) a0 = net.satAddr dt)
    (hstay : ∀ u b, .track g u b ∈ ops → u < a0 ∨ T ≤ u) {m : Nat} {x : N} {i : Nat} {y : N} (hc : Carried h sc nodes nfd t m x i y) (hy : y = node dt) :
    ∀ d u, x = node d → ComesIn sc net node s p d i u → a0 ≤ u → u + (m + 1) * (H + deadline B L C M) < T →
      ∃ τ, Gets net s (.ground g) τ p ∧ u ≤ τ ∧ τ ≤ u + (m + 1) * (H + deadline B L C M) := by
  have hdl : C + L + M + L ≤ deadline B L C M := by unfold deadline; omega
  induction hc with
  | @ground x i k dv ad hrec hdev =>
    intro d u hxd hin hu hlate
    subst hxd
    have hdd := hre.inj hy
    subst hdd
    rw [Nat.zero_add, Nat.one_mul] at hlate ⊢
    obtain ⟨v, hout, v1, v2⟩ := hob d i u k hin hrec (by omega)
    rcases hout with ⟨dv', ad', z, -, z2, z3⟩ | ⟨e, z, z1, -⟩
    · subst z3
      obtain ⟨τ, t1, t2, t3⟩ := Network.C95_down hs hlim hshort hx z2 hon (fun u' h1 h2 => hopen u' (by omega) (by omega)) (by
        rw [Network.trackedAt_stays (t := a0) (by omega)]
        · exact htr
        · intro c hc hle
          have := hstay _ _ (Network.mem_tracks hc)
          omega) (fun u' b hb => by
        have := hstay u' b hb
        omega) hT1 (by omega)
      exact ⟨τ, t1, by omega, by omega⟩
    · rw [hdev] at z1
      simp at z1
  | @link x y i k j m e hrec hdev hj _ ih =>
    intro d u hxd hin hu hlate
    subst hxd
    have e1 : (m + 1 + 1) * (H + deadline B L C M) = (m + 1) * (H + deadline B L C M) + (H + deadline B L C M) := by rw [Nat.add_mul (m + 1), Nat.one_mul]
    rw [e1] at hlate ⊢
    obtain ⟨v, hout, v1, v2⟩ := hob d i u k hin hrec (by omega)
    rcases hout with ⟨dv', ad', z, z1, -⟩ | ⟨e', z, z1, z2, z3, z4⟩
    · rw [hdev] at z1
      simp at z1
    · rw [hdev] at z1
      simp only [Option.some.injEq, Scenario.NetDev.isl.injEq] at z1
      subst z1 z3 z4
      obtain ⟨τ, proto, t1, t2, t3⟩ := Network.isl_delivered hs hlim hshort hx z2 (fun u' h1 h2 => hisl _ u' (by omega) (by omega)) hT2 (by omega)
      obtain ⟨τ', r1, r2, r3⟩ := ih hy (net.own (otherEnd sc.links e)) τ (hre.own _).symm
        (Or.inr ⟨_, proto, rfl, by rw [hre.own]; exact hj, t1⟩) (by omega) (by omega)
      exact ⟨τ', r1, by omega, by omega⟩

/-- What the strategy decides, seen on the grid: at the tagged satellite, the ground; elsewhere, the link to a neighbour that is one step nearer. -/
theorem decides {h : Host} {n s : Nat} {sat : Nat × Nat → N} {st : IcarusHelper.St N U} {nodes : List N} (F : Facts h n s sat st nodes) {nfd : Nfd}
    (hsup : nfd.suppression ≠ .suppress) (hord : ∀ l, (nfd.order l).Perm l) {a t : Nat × Nat} (ha : a.1 < n ∧ a.2 < s) (ht : t.1 < n ∧ t.2 < s) {i : Nat}
    {di : Scenario.NetDev (satLinks n s sat)} (hi : (devices ⟨st, satLinks n s sat⟩ (sat a))[i]? = some di)
    (hin : (∃ x, di = .icarus x) ∨ ∃ e, di = .isl e ∧ torusDist n s a t < torusDist n s (place (otherEnd _ e)) t) :
    ∃ k d, (devices ⟨st, satLinks n s sat⟩ (sat a))[k]? = some d ∧ receive h ⟨st, satLinks n s sat⟩ nodes nfd (sat a) i t = .ok [.sendInterest k] ∧
      ((a = t ∧ ∃ x, d = .icarus x) ∨ ∃ e, d = .isl e ∧ torusDist n s (place (otherEnd _ e)) t + 1 = torusDist n s a t) := by
  obtain ⟨h1, h2⟩ := C13_progress ht ha
  cases hh : hop n s t a with
  | none =>
    obtain ⟨d0, ad, -, -, h3⟩ := Scenario.devices_sat F ha
    obtain ⟨k, d, c1, c2, c3⟩ := Scenario.forwards F hsup hord ha ht hi (k0 := 0) (d0 := .icarus (.sat d0 ad)) (by rw [h3]; rfl)
      (Or.inr rfl) (by rw [hh]; rfl)
    refine ⟨k, d, c1, c3, Or.inl ⟨h1.mp hh, ?_⟩⟩
    rcases Scenario.device_at F ha c1 with ⟨_, _, rfl⟩ | ⟨e, rfl, he⟩
    · exact ⟨_, rfl⟩
    · rw [Scenario.leadsTo_isl, hh] at c2
      simp only [Option.getD_none, Option.some.injEq] at c2
      exact absurd (he.trans c2.symm) (Scenario.adj_ne (Scenario.place_adj e))
  | some b =>
    obtain ⟨hadj, hb1, hb2, hd⟩ := h2 b hh
    obtain ⟨e0, p1, p2⟩ := Scenario.exists_end (sat := sat) hadj
    obtain ⟨k0, hk0⟩ := Scenario.end_device st e0
    rw [Scenario.owner_place, p1] at hk0
    have hne : k0 ≠ i := by
      rintro rfl
      rw [hk0] at hi
      simp only [Option.some.injEq] at hi
      subst hi
      rcases hin with ⟨x, hx⟩ | ⟨e, he, hlt⟩
      · cases hx
      · cases he; rw [p2] at hlt; omega
    obtain ⟨k, d, c1, c2, c3⟩ := Scenario.forwards F hsup hord ha ht hi hk0 (Or.inl hne) (by rw [Scenario.leadsTo_isl, p2, hh]; rfl)
    rw [hh, Option.getD_some] at c2
    refine ⟨k, d, c1, c3, Or.inr ?_⟩
    rcases Scenario.device_at F ha c1 with ⟨_, _, rfl⟩ | ⟨e, rfl, he⟩
    · simp only [leadsTo, Scenario.kindAt, Option.some.injEq] at c2
      exact absurd c2 (Scenario.adj_ne hadj)
    · rw [Scenario.leadsTo_isl, Option.some.injEq] at c2
      exact ⟨e, rfl, by rw [c2]; exact hd⟩

/-- A list of operations, split at one of them, with the states before and after. -/
theorem split_at {E : Type} [Fintype E] [DecidableEq E] {net : Network.Net D G E V W P R} {pre post : List (Op D G E W)} {o : Op D G E W}
    {s : Network.Sys D G E W R} (h : Network.exec net (pre ++ o :: post) = some (.ok s)) :
    ∃ s0 s1, Network.exec net pre = some (.ok s0) ∧ Network.step net s0 o = some (.ok s1) := by
  have h' : runFrom (Network.step net) (Network.Sys.init net) ((pre ++ [o]) ++ post) = some (.ok s) := by
    rw [List.append_assoc]; exact h
  rw [runFrom_append] at h'
  split at h'
  · rename_i s1 h1
    obtain ⟨s0, h0, h2⟩ := runFrom_snoc.mp h1
    exact ⟨s0, s1, h0, h2⟩
  · rename_i hno
    exact absurd h' (hno s)

omit [Fintype G] [Fintype D] [DecidableEq G] [DecidableEq D] in
theorem ComesIn.gets {sc : Scenario.Net N U} {net : Network.Net D G (End sc.links) V W P R} {node : D → N} {s : Network.Sys D G (End sc.links) W R} {p : Nat}
    {d : D} {i u : Nat} (h : ComesIn sc net node s p d i u) : Gets net s (.sat d) u p := by
  rcases h with ⟨-, h⟩ | ⟨e, proto, h1, -, h2⟩
  · exact Or.inl h
  · exact Or.inr ⟨e, proto, h1, h2⟩

/-- Where a packet that satellites forward loyally has come from when it comes in at a satellite, and that the strategy will not send it back. -/
theorem came_from {h : Host} {n m : Nat} {sat : Nat × Nat → N} {st : IcarusHelper.St N U} {nodes : List N} (F : Facts h n m sat st nodes) {nfd : N → Nat → Nfd}
    (hsup : ∀ x i, (nfd x i).suppression ≠ .suppress) (hord : ∀ x i l, ((nfd x i).order l).Perm l) {t : Nat × Nat} (ht : t.1 < n ∧ t.2 < m)
    {net : Network.Net D G (End (satLinks n m sat)) V W P R} {node : D → N} (hre : Realizes ⟨st, satLinks n m sat⟩ net node) {spot : D → Nat × Nat}
    (hspot : ∀ d, ((spot d).1 < n ∧ (spot d).2 < m) ∧ node d = sat (spot d)) {w : World D G (End (satLinks n m sat)) W} {hist : List (Nat × Nat × D)}
    {as : List SatAddress} (hs : Setup net w (otherEnd (satLinks n m sat)) hist as) (hh : Network.Honest true net.rx) (hp : Network.Punctual net.rx) {B L C M : Nat}
    (hlim : Limits net w (otherEnd (satLinks n m sat)) B L C M) {p : Nat} {ops : List (Op D G (End (satLinks n m sat)) W)} (hl : Launched net hist as ops)
    (hshort : Short ops L) (hloyal : Loyal h ⟨st, satLinks n m sat⟩ nodes nfd net node ops p t) {s : Network.Sys D G (End (satLinks n m sat)) W R}
    (hx : Network.exec net ops = some (.ok s)) {d : D} {i u : Nat} (hin : ComesIn ⟨st, satLinks n m sat⟩ net node s p d i u) :
    (∃ g0 d0 path t0 kept, Trip net w (otherEnd (satLinks n m sat)) (Uplink.target hist as) true ops p (deadline B L C M) path t0 u kept ∧
      path.head? = some (.ground g0) ∧ path[1]? = some (.sat d0) ∧ path.getLast? = some (.sat d) ∧
      path.length + torusDist n m (spot d) t = torusDist n m (spot d0) t + 2 ∧ ∀ x ∈ path.tail, ∃ d', x = .sat d') ∧
    ∃ di, (devices ⟨st, satLinks n m sat⟩ (sat (spot d)))[i]? = some di ∧
      ((∃ x, di = .icarus x) ∨ ∃ e, di = .isl e ∧ torusDist n m (spot d) t < torusDist n m (place (otherEnd _ e)) t) := by
  induction hlen : ops.length using Nat.strong_induction_on generalizing ops s d i u with
  | _ len ih =>
  have hplace : ∀ e, spot (net.own e) = place e := by
    intro e
    obtain ⟨k1, k2⟩ := hspot (net.own e)
    have := hre.own e
    rw [k2, Scenario.owner_place] at this
    exact F.inj _ _ k1.1 k1.2 (Scenario.place_range e).1 (Scenario.place_range e).2 this
  rcases hin with ⟨rfl, k, i', ta, f, k1, k2, k3, k4⟩ | ⟨e, proto, rfl, k1, k2⟩
  · obtain ⟨g, a, c, h1, h2⟩ := Network.up_by hs hh hp hlim hl hshort hx k1 k2 k3 k4
    refine ⟨⟨g, d, _, a, 0, .one h1 h2, rfl, rfl, rfl, by simp; omega, by simp⟩, ?_⟩
    obtain ⟨dv, hdv⟩ := hre.addr d
    rw [(hspot d).2] at hdv
    exact ⟨_, hdv, Or.inl ⟨_, rfl⟩⟩
  · obtain ⟨e', a, l, proto', c, rfl, hmem, hop, hsoon⟩ := Network.isl_by hs hlim hshort hx k2
    obtain ⟨pre, post, rfl⟩ := List.append_of_mem hmem
    obtain ⟨s0, s1, x0, x1⟩ := split_at hx
    have hsend : sends net (.isl (.tx e' (.send a p l proto'))) = some (.sat (net.own e'), a, p) := rfl
    obtain ⟨i0, u0, k0, c1, c2, c3⟩ := hloyal pre _ post s0 _ a rfl x0 hsend
    have hdev : (devices ⟨st, satLinks n m sat⟩ (node (net.own e')))[k0]? = some (.isl e') := by
      rcases c3 with ⟨_, _, _, _, c, -⟩ | ⟨_, _, e'', c, c'⟩
      · simp at c
      · simp only [Op.isl.injEq, IslNet.Op.tx.injEq] at c
        rw [← c.1] at c'
        exact c'
    have hloyal' : Loyal h ⟨st, satLinks n m sat⟩ nodes nfd net node pre p t := by
      rintro pre' o' post' s' d' v' rfl hs' ho'
      exact hloyal pre' o' (post' ++ .isl (.tx e' (.send a p l proto')) :: post) s' d' v' (by simp) hs' ho'
    obtain ⟨⟨g0, d0, path, t0, kept, j1, j2, j3, j4, j5, j8⟩, di, j6, j7⟩ := ih pre.length (by rw [← hlen]; simp) hl.left hshort.left hloyal' x0 c1 rfl
    obtain ⟨k', d', q1, q2, q3⟩ := decides F (hsup (node (net.own e')) i0) (hord (node (net.own e')) i0) (hspot (net.own e')).1 ht j6 j7
    rw [(hspot (net.own e')).2] at c2 hdev q2
    rw [q2] at c2
    simp only [Outcome.ok.injEq, List.cons.injEq, Action.sendInterest.injEq, and_true] at c2
    subst c2
    rw [q1] at hdev
    simp only [Option.some.injEq] at hdev
    subst hdev
    obtain ⟨e'', r1, r2⟩ : ∃ e'', Scenario.NetDev.isl e' = Scenario.NetDev.isl (links := satLinks n m sat) e'' ∧
        torusDist n m (place (otherEnd _ e'')) t + 1 = torusDist n m (spot (net.own e')) t := by
      rcases q3 with ⟨-, x, q⟩ | q
      · cases q
      · exact q
    cases r1
    have hback : otherEnd (satLinks n m sat) (otherEnd _ e') = e' := by simp [otherEnd]
    have htwo := j1.two
    refine ⟨⟨g0, d0, path ++ [.sat (net.own (otherEnd _ e'))], t0, _, .more (j1.mono (b := .isl (.tx e' (.send a p l proto')) :: post)) j4
      ⟨pre, _, post, s0, rfl, hsend, x0, c1.gets, Network.gets_before hh x0 x1 hsend c1.gets⟩ hop hsoon, ?_, ?_, by simp, ?_, ?_⟩, ?_⟩
    · rw [List.head?_append, j2]; rfl
    · rw [List.getElem?_append_left (by omega), j3]
    · rw [hplace (otherEnd _ e'), List.length_append, List.length_singleton]
      omega
    · intro x hx
      rw [List.tail_append_of_ne_nil (by rintro rfl; simp at htwo)] at hx
      rcases List.mem_append.mp hx with hx | hx
      · exact j8 x hx
      · exact ⟨_, List.mem_singleton.mp hx⟩
    · rw [(hspot _).2] at k1
      refine ⟨_, k1, Or.inr ⟨_, rfl, ?_⟩⟩
      rw [hback, ← hplace e', hplace (otherEnd _ e')]
      omega

omit [Fintype G] [Fintype D] [DecidableEq G] [DecidableEq D] in
theorem place_addr {h : Host} {n m : Nat} {sat : Nat × Nat → N} {st : IcarusHelper.St N U} {nodes : List N} (F : Facts h n m sat st nodes)
    {net : Network.Net D G (End (satLinks n m sat)) V W P R} {node : D → N} (hre : Realizes ⟨st, satLinks n m sat⟩ net node) {d : D} {a : Nat × Nat}
    (ha : a.1 < n ∧ a.2 < m) (hd : node d = sat a) : placeOf h.endian (net.satAddr d) = a := by
  obtain ⟨dv, h1⟩ := hre.addr d
  obtain ⟨d0, ad, -, h2, h3⟩ := Scenario.devices_sat F ha
  rw [hd, h3] at h1
  simp only [List.getElem?_cons_zero, Option.some.injEq, Scenario.NetDev.icarus.injEq, IcarusHelper.Installed.sat.injEq] at h1
  rw [← h1.2]
  exact h2

/-- **Nowhere else.**  If satellites send an Interest tagged with `t` only as the strategy decides, then a station that gets it is tuned, at some time, to satellite `t`; and
it has come from a station, over satellites only, over as many links between them as the grid needs from the satellite where it went up to `t`, within that number of deadlines and two more,
and the time for which NFD kept it at the satellites. -/
theorem C96_only {h : Host} {n m : Nat} {sat : Nat × Nat → N} {nodes : List N} {sc : Scenario.Net N U} (hmade : Made h n m sat nodes sc) {nfd : N → Nat → Nfd}
    (hsup : ∀ x i, (nfd x i).suppression ≠ .suppress) (hord : ∀ x i l, ((nfd x i).order l).Perm l) {t : Nat × Nat} (ht : t.1 < n ∧ t.2 < m)
    {net : Network.Net D G (End sc.links) V W P R} {node : D → N} (hre : Realizes sc net node) (hseat : ∀ d, ∃ a : Nat × Nat, (a.1 < n ∧ a.2 < m) ∧ node d = sat a)
    {w : World D G (End sc.links) W} {hist : List (Nat × Nat × D)} {as : List SatAddress} (hs : Setup net w (otherEnd sc.links) hist as)
    (hh : Network.Honest true net.rx) (hp : Network.Punctual net.rx) {B L C M : Nat} (hlim : Limits net w (otherEnd sc.links) B L C M) {p : Nat}
    {ops : List (Op D G (End sc.links) W)} (hl : Launched net hist as ops) (hshort : Short ops L) (hloyal : Loyal h sc nodes nfd net node ops p t)
    {s : Network.Sys D G (End sc.links) W R} (hx : Network.exec net ops = some (.ok s)) {g : G} {τ : Nat} (hg : Gets net s (.ground g) τ p) :
    ∃ dt, placeOf h.endian (net.satAddr dt) = t ∧ (net.satAddr dt = net.remote g ∨ ∃ v, .track g v (net.satAddr dt) ∈ ops) ∧
      ∃ g0 d0 path t0 kept, Trip net w (otherEnd sc.links) (Uplink.target hist as) true ops p (deadline B L C M) path t0 τ kept ∧
        path.head? = some (.ground g0) ∧ path[1]? = some (.sat d0) ∧ path.getLast? = some (.ground g) ∧
        path.length = torusDist n m (placeOf h.endian (net.satAddr d0)) t + 3 ∧ (∀ x ∈ path.tail.dropLast, ∃ d, x = .sat d) ∧
        τ ≤ t0 + kept + (torusDist n m (placeOf h.endian (net.satAddr d0)) t + 2) * deadline B L C M := by
  obtain ⟨st, rfl, F⟩ := hmade.facts ht
  have hspot : ∀ d, ((placeOf h.endian (net.satAddr d)).1 < n ∧ (placeOf h.endian (net.satAddr d)).2 < m) ∧ node d = sat (placeOf h.endian (net.satAddr d)) := by
    intro d
    obtain ⟨a, a1, a2⟩ := hseat d
    rw [place_addr F hre a1 a2]
    exact ⟨a1, a2⟩
  obtain ⟨y, hy, rfl⟩ := hg
  obtain ⟨d, a, l, proto, c, hmem, htuned, hop, hsoon⟩ := Network.down_by hs hlim hshort hx hy
  obtain ⟨pre, post, rfl⟩ := List.append_of_mem hmem
  obtain ⟨s0, s1, x0, x1⟩ := split_at hx
  have hsend : sends net (.sat d (.send a y.pkt l proto)) = some (.sat d, a, y.pkt) := rfl
  obtain ⟨i, u, k, c1, c2, c3⟩ := hloyal pre _ post s0 _ a rfl x0 hsend
  have hloyal' : Loyal h ⟨st, satLinks n m sat⟩ nodes nfd net node pre y.pkt t := by
    rintro pre' o' post' s' d' v' rfl hs' ho'
    exact hloyal pre' o' (post' ++ .sat d (.send a y.pkt l proto) :: post) s' d' v' (by simp) hs' ho'
  obtain ⟨⟨g0, d0, path, t0, kept, j1, j2, j3, j4, j5, j8⟩, di, j6, j7⟩ := came_from F hsup hord ht hre hspot hs hh hp hlim hl.left hshort.left hloyal' x0 c1
  obtain ⟨k', d', q1, q2, q3⟩ := decides F (hsup (node d) i) (hord (node d) i) (hspot d).1 ht j6 j7
  rw [(hspot d).2] at c2 c3 q2
  rw [q2] at c2
  simp only [Outcome.ok.injEq, List.cons.injEq, Action.sendInterest.injEq, and_true] at c2
  subst c2
  have hat : placeOf h.endian (net.satAddr d) = t := by
    rcases q3 with ⟨q, -⟩ | ⟨e, rfl, -⟩
    · exact q
    · rcases c3 with ⟨_, _, _, _, -, c⟩ | ⟨_, _, _, c, -⟩
      · rw [q1] at c
        simp at c
      · simp at c
  rw [hat, torusDist_self, Nat.add_zero] at j5
  have htrip := Trip.more (j1.mono (b := .sat d (.send a y.pkt l proto) :: post)) j4
    ⟨pre, _, post, s0, rfl, hsend, x0, c1.gets, Network.gets_before hh x0 x1 hsend c1.gets⟩ hop hsoon
  have hlen : (path ++ [Network.Node.ground g]).length = torusDist n m (placeOf h.endian (net.satAddr d0)) t + 3 := by
    rw [List.length_append, List.length_singleton, j5]
  refine ⟨d, hat, htuned, g0, d0, _, t0, _, htrip, ?_, ?_, by simp, hlen, ?_, ?_⟩
  · rw [List.head?_append, j2]; rfl
  · have := j1.two
    rw [List.getElem?_append_left (by omega), j3]
  · have := j1.two
    rw [List.tail_append_of_ne_nil (by rintro rfl; simp at this), List.dropLast_concat]
    exact j8
  · have := htrip.time
    rw [hlen] at this
    exact this

/-- **There in time.**  An Interest tagged with `t`, accepted by the queue of a station when it tracks satellite `d0`, is got by every station tuned to satellite `t`
within as many deadlines as the grid needs links from `d0` to `t`, and two more, plus `H` ticks for NFD at each satellite: if NFD obeys the strategy within `H` ticks and
the links stay open for that long. -/
theorem C96_delivered {h : Host} {n m : Nat} {sat : Nat × Nat → N} {nodes : List N} {sc : Scenario.Net N U} (hmade : Made h n m sat nodes sc) {nfd : N → Nat → Nfd}
    (hsup : ∀ x i, (nfd x i).suppression ≠ .suppress) (hord : ∀ x i l, ((nfd x i).order l).Perm l) {t : Nat × Nat} (ht : t.1 < n ∧ t.2 < m)
    {net : Network.Net D G (End sc.links) V W P (NoneMac.Sys P)} (hrx : net.rx = Uplink.noneReceiver P) {node : D → N} (hre : Realizes sc net node)
    {w : World D G (End sc.links) W} {hist : List (Nat × Nat × D)} {as : List SatAddress} (hs : Setup net w (otherEnd sc.links) hist as)
    {B L C M : Nat} (hlim : Limits net w (otherEnd sc.links) B L C M) {p : Nat}
    {ops : List (Op D G (End sc.links) W)} (hl : Launched net hist as ops) (hshort : Short ops L)
    {s : Network.Sys D G (End sc.links) W (NoneMac.Sys P)} (hx : Network.exec net ops = some (.ok s)) {H T : Nat} (hob : Obeys h sc nodes nfd net node s p t H T)
    (hT : Uplink.due net.up s.up T ∧ Downlink.due s.down T ∧ IslNet.due s.isl T)
    {g0 : G} {a : Nat} {x : GroundSta.Entry W} (hacc : (a, x) ∈ (s.up.stations g0).accepted) (hpkt : x.pkt = p)
    {d0 dt : D} (htgt : Uplink.target hist as x.dst = some d0) {b : Nat × Nat} (hb : b.1 < n ∧ b.2 < m) (hd0 : node d0 = sat b) (hdt : node dt = sat t)
    (hup : ∀ u, a ≤ u → u < T → w.ground.admit u g0 d0 = true) (hisl : ∀ e u, a ≤ u → u < T → w.isl.admit u e (otherEnd sc.links e) = true)
    {g : G} (hon : g ∈ net.chan.ground) (hdown : ∀ u, a ≤ u → u < T → w.ground.admit u g dt = true)
    (htr : Downlink.trackedAt (net.remote g) (Downlink.tracks g (ops.filterMap Network.toDown)) a = net.satAddr dt)
    (hstay : ∀ u c, .track g u c ∈ ops → u < a ∨ T ≤ u)
    (hlate : a + (torusDist n m b t + 2) * deadline B L C M + (torusDist n m b t + 1) * H < T) :
    ∃ τ, Gets net s (.ground g) τ p ∧ a ≤ τ ∧ τ ≤ a + (torusDist n m b t + 2) * deadline B L C M + (torusDist n m b t + 1) * H := by
  obtain ⟨st, rfl, F⟩ := hmade.facts ht
  have e : (torusDist n m b t + 2) * deadline B L C M + (torusDist n m b t + 1) * H =
      deadline B L C M + (torusDist n m b t + 1) * (H + deadline B L C M) := by ring
  have hdl : C + (B + L) + B ≤ deadline B L C M := by unfold deadline; omega
  obtain ⟨u, u1, u2, u3⟩ := Network.up_delivered hrx hs hlim hl hshort hx hacc htgt (fun v v1 v2 => hup v v1 (by omega)) hT.1 (by omega)
  obtain ⟨dv, ad, -, -, h3⟩ := Scenario.devices_sat F hb
  have hc := Scenario.carried F nfd hsup hord ht _ b 0 (.icarus (.sat dv ad)) hb rfl (by rw [h3]; rfl) (Or.inl ⟨_, rfl⟩)
  rw [hpkt] at u1
  obtain ⟨τ, t1, t2, t3⟩ := carried_out hre hs hlim hshort hx hob hT.2.1 hT.2.2 hisl hon hdown htr hstay hc hdt.symm d0 u hd0.symm (Or.inl ⟨rfl, u1⟩) u2 (by omega)
  exact ⟨τ, t1, by omega, by omega⟩

end

/-! ## A concrete case -/

section Example

abbrev exHost : Host := ⟨true, .little, 7, 1⟩
abbrev exPos : Nat → Option Unit := fun x => if x < 2 then none else some ()
abbrev exSat : Nat × Nat → Nat := fun a => a.1 * 2 + a.2
abbrev exLinks : List (Nat × Nat) := satLinks 1 2 exSat

/-- One plane of two satellites, nodes 0 and 1, and two stations, nodes 2 and 3. -/
theorem exMade : ∃ st : IcarusHelper.St Nat Unit, Made exHost 1 2 exSat [0, 1, 2, 3] ⟨st, exLinks⟩ ∧ Facts exHost 1 2 exSat st [0, 1, 2, 3] ∧
    ∀ d : Fin 2, ∃ dv, (devices ⟨st, exLinks⟩ d.val)[0]? = some (.icarus (.sat dv (SatAddress.mk3 .little 1 0 (UInt16.ofNat d.val)))) := by
  have hfit : Fits16 1 1 2 := by unfold Fits16; omega
  have hsat : ∀ p i, p < 1 → i < 2 → (([0, 1, 2, 3] : List Nat).filter (fun x => (exPos x).isNone))[p * 2 + i]? = some (exSat (p, i)) := by
    intro p i hp hi
    obtain rfl : p = 0 := by omega
    obtain rfl | rfl : i = 0 ∨ i = 1 := by omega
    all_goals rfl
  have hlast : ∀ x, ([0, 1, 2, 3] : List Nat).getLast? = some x → exPos x ≠ none := by
    intro x hx
    simp at hx
    subst hx
    decide
  obtain ⟨st, b1, F⟩ := Scenario.facts_of_build exHost 1 1 2 0 250 90 exPos 0 [0, 1, 2, 3] [0, 1] (by decide) hfit (by decide) (by decide) (by decide) hlast exSat hsat
  refine ⟨st, ⟨1, 0, 250, 90, exPos, 0, [0, 1], by decide, hfit, by decide, by decide, by decide, hlast, hsat, b1⟩, F (0, 0) (by decide) (by decide), ?_⟩
  obtain ⟨st', i1, -, i3, -⟩ := IcarusHelper.C54_install (V := Unit) true .little 1 1 2 0 250 90 exPos 0 [0, 1, 2, 3] (by decide) (by decide) hfit
  have hst : st' = st := by
    unfold Scenario.build at b1
    rw [show exHost.debug = true from rfl, show exHost.endian = .little from rfl, i1, Outcome.bind_ok] at b1
    obtain ⟨ids, -, b1⟩ := Outcome.bind_eq_ok.mp b1
    obtain ⟨links, -, b1⟩ := Outcome.bind_eq_ok.mp b1
    simp only [Outcome.ok.injEq, Scenario.Net.mk.injEq] at b1
    exact b1.1
  subst hst
  intro d
  have key : ∀ k : Nat, k < 2 → ∃ dv, (devices ⟨st', exLinks⟩ k)[0]? = some (.icarus (.sat dv (SatAddress.mk3 .little 1 0 (UInt16.ofNat k)))) := by
    intro k hk
    have hk' : ([0, 1, 2, 3] : List Nat)[k]? = some k := by
      obtain rfl | rfl : k = 0 ∨ k = 1 := by omega
      all_goals rfl
    obtain ⟨dv, ad, c1, c2, c3, c4, c5, -⟩ := i3 k k hk' (by simp [exPos, hk])
    have hcount : (([0, 1, 2, 3] : List Nat).take k).countP (fun x => (exPos x).isNone) = k := by
      obtain rfl | rfl : k = 0 ∨ k = 1 := by omega
      all_goals rfl
    rw [hcount] at c4 c5
    obtain ⟨d0, ad0, e1, e2, e3⟩ := (F (0, 0) (by decide) (by decide)).first (0, k) (by simp) hk
    have hkk : exSat (0, k) = k := by simp [exSat]
    rw [hkk] at e1 e2
    have hin : IcarusHelper.Installed.sat dv ad ∈ [IcarusHelper.Installed.sat d0 ad0] := by
      rw [← e1, List.mem_filter]
      exact ⟨List.mem_of_getElem? c1, decide_eq_true c2⟩
    simp only [List.mem_singleton, IcarusHelper.Installed.sat.injEq] at hin
    refine ⟨d0, ?_⟩
    have hadr : ad0 = SatAddress.mk3 .little 1 0 (UInt16.ofNat k) := by
      rw [← hin.2, ← SatAddress.mk3_getters .little ad]
      congr 1
      · exact UInt16.toNat_inj.mp c3
      · refine UInt16.toNat_inj.mp ?_
        rw [c4, Nat.div_eq_of_lt hk]; rfl
      · refine UInt16.toNat_inj.mp ?_
        rw [c5, Nat.mod_eq_of_lt hk, UInt16.toNat_ofNat_of_lt' (by simp [UInt16.size]; omega)]
    rw [← hadr]
    simp [devices, e1]
  exact key d.val d.isLt

/-- The network of the examples of C73 and C95, with the links of the helper. -/
def exNet {R : Type} (rx : Uplink.Receiver Int R) : Network.Net (Fin 2) (Fin 2) (End exLinks) Nat Int Int R where
  debug := true
  endian := .little
  ty := 7
  chan := ⟨some Uplink.exConstellation, [0, 1]⟩
  air := fun _ => ⟨fun g => some g.val, fun d => some d.val, some (fun _ ps => 3 + 2 * ps), some (fun p _ _ => p - 10), some (fun g d => .ok (g == d))⟩
  addr := fun g => ⟨1, [UInt8.ofNat g.val]⟩
  mac := fun _ => noneMac
  accept := fun _ => Queue.dropTail .packets 2 (fun _ => 100)
  remote := fun g => SatAddress.mk3 .little 1 0 (UInt16.ofNat g.val)
  power := fun _ => 30
  rx := rx
  toP := fun p => p.natAbs + 1
  satAddr := fun d => SatAddress.mk3 .little 1 0 (UInt16.ofNat d.val)
  satAccept := fun _ => Queue.dropTail .packets 2 (fun _ => 100)
  satPower := fun _ => 30
  isl := ⟨true, fun e => ⟨2, ⟨false, some (e.1, false), some (e.1, true)⟩, ⟨false, some (e.1, true), some (e.1, false)⟩⟩,
    fun _ => Queue.dropTail .packets 2 (fun _ => 100), fun _ => some (fun _ _ => 5), fun _ => none⟩
  own := fun e => if e.2 then 1 else 0

def exWorld : World (Fin 2) (Fin 2) (End exLinks) Int :=
  ⟨⟨fun _ _ d => 3 + 2 * d.val, fun _ _ _ p => p - 10, fun _ g d => g == d⟩, ⟨fun _ _ _ => 5, fun _ _ _ => true⟩⟩

theorem exSetup {R : Type} (rx : Uplink.Receiver Int R) : Setup (exNet rx) exWorld (otherEnd exLinks) Network.exHist Network.exAddrs where
  built := ⟨_, _, _, _, _, Uplink.exBuilt, by unfold Fits16; decide, rfl⟩
  sky := fun _ g d => ⟨g.val, d.val, fun _ ps => 3 + 2 * ps, fun p _ _ => p - 10, ⟨rfl, rfl, rfl, rfl⟩, rfl, fun _ => rfl, Or.inr ⟨_, rfl, rfl⟩⟩
  islSky := fun _ => ⟨rfl, Or.inl ⟨rfl, fun _ _ => rfl⟩⟩
  wired := fun d => ⟨true, ⟨fun _ => true, fun _ => true, true⟩, (d.1, false), (d.1, true), by simp, by
    simp [Sat2SatChannel.attachAll, Sat2SatChannel.attach, Sat2SatChannel.putEnd, Sat2SatChannel.Chan.init, exNet], by
    obtain ⟨k, b⟩ := d
    cases b <;> simp [otherEnd]⟩

theorem exLimits {R : Type} (rx : Uplink.Receiver Int R) : Limits (exNet rx) exWorld (otherEnd exLinks) 0 10 10 5 :=
  (Network.C95_packets (K := 2) (by decide) (b1 := fun _ _ => 100) (b2 := fun _ _ => 100) (b3 := fun _ _ => 100) (fun _ => rfl) (fun _ => rfl) (fun _ => rfl)
    (fun _ => QueueDelay.none_prompt) (fun u g d _ => by show 3 + 2 * d.val ≤ 5; omega) (fun u e _ => Nat.le_refl _)).1

/-- The ends of the one link. -/
def exEnd (b : Bool) : End exLinks := (⟨0, by decide⟩, b)

/-- Packet 11, tagged with satellite 1, goes from station 0 up to satellite 0, over to satellite 1 and down to station 1. -/
def exOps : List (Op (Fin 2) (Fin 2) (End exLinks) Int) :=
  [.send 0 0 11 10 7, .upArrive, .run 0, .upFinish 0, .isl (.tx (exEnd false) (.send 13 11 4 7)), .isl (.tx (exEnd false) .run), .isl .arrive, .isl (.finish (exEnd true)),
   .sat 1 (.send 22 11 10 7), .downArrive, .sat 1 .run, .downFinish 1]

theorem end_cases (e : End exLinks) : e = exEnd false ∨ e = exEnd true := by
  obtain ⟨⟨k, hk⟩, b⟩ := e
  have : exLinks.length = 1 := by decide
  obtain rfl : k = 0 := by omega
  cases b <;> simp [exEnd]

theorem end_place : place (sat := exSat) (exEnd false) = (0, 0) ∧ place (sat := exSat) (exEnd true) = (0, 1) ∧
    otherEnd exLinks (exEnd false) = exEnd true ∧ otherEnd exLinks (exEnd true) = exEnd false := by decide

abbrev exNfd : Nat → Nat → Nfd := fun _ _ => ⟨.new, fun _ => true, fun _ => 0, id⟩

/-- The state in the end. -/
theorem exRun : ∃ s, Network.exec (exNet (Uplink.noneReceiver Int)) exOps = some (.ok s) ∧
    (0, ⟨11, 10, SatAddress.mk3 .little 1 0 0, 7, 30⟩) ∈ (s.up.stations 0).accepted ∧
    (∀ d, (s.up.sats d).delivered = if d = 0 then [(13, 0)] else []) ∧ (∀ b, (s.isl.rx (exEnd b)).delivered = if b then [(22, 11, 7)] else []) ∧
    (13, ⟨11, 4, 7⟩, false) ∈ (s.isl.tx (exEnd false)).accepted ∧ (22, ⟨11, 10, 7, 30⟩) ∈ (s.down.sats 1).accepted ∧
    (s.down.stations 1).delivered = [(37, ⟨11, (SatAddress.mk3 .little 1 0 1).convertTo .little 7, 7⟩)] ∧
    Uplink.due (exNet (Uplink.noneReceiver Int)).up s.up 106 ∧ Downlink.due s.down 106 ∧ IslNet.due s.isl 106 := by
  refine ⟨_, rfl, ?_⟩
  unfold Uplink.due Downlink.due IslNet.due
  decide

theorem exFromGround {s : Network.Sys (Fin 2) (Fin 2) (End exLinks) Int (NoneMac.Sys Int)} (h : ∀ d, (s.up.sats d).delivered = if d = 0 then [(13, 0)] else [])
    {d : Fin 2} {u p : Nat} (hf : FromGround (exNet (Uplink.noneReceiver Int)) s d u p) : d = 0 ∧ u = 13 := by
  obtain ⟨k, i, ta, f, h1, -⟩ := hf
  have h1' : (u, k) ∈ (s.up.sats d).delivered := h1
  rw [h d] at h1'
  split at h1'
  · rename_i hd
    simp only [List.mem_singleton, Prod.mk.injEq] at h1'
    exact ⟨hd, h1'.1⟩
  · simp at h1'

theorem exRealizes {st : IcarusHelper.St Nat Unit} {R : Type} {rx : Uplink.Receiver Int R}
    (hst : ∀ d : Fin 2, ∃ dv, (devices ⟨st, exLinks⟩ d.val)[0]? = some (.icarus (.sat dv (SatAddress.mk3 .little 1 0 (UInt16.ofNat d.val))))) :
    Realizes ⟨st, exLinks⟩ (exNet rx) (fun d : Fin 2 => d.val) where
  inj := Fin.val_injective
  addr := hst
  own := fun e => by rcases end_cases e with rfl | rfl <;> rfl

/-- At satellite 0 the strategy sends the Interest over the link, at satellite 1, where it comes in from the link, to the ground. -/
theorem exDecides {st : IcarusHelper.St Nat Unit} (F : Facts exHost 1 2 exSat st [0, 1, 2, 3]) :
    (∃ k, receive exHost ⟨st, exLinks⟩ [0, 1, 2, 3] (exNfd 0 0) 0 0 (0, 1) = .ok [.sendInterest k] ∧ (devices ⟨st, exLinks⟩ 0)[k]? = some (.isl (exEnd false))) ∧
    ∀ i, (devices ⟨st, exLinks⟩ 1)[i]? = some (.isl (exEnd true)) →
      ∃ k dv ad, receive exHost ⟨st, exLinks⟩ [0, 1, 2, 3] (exNfd 1 i) 1 i (0, 1) = .ok [.sendInterest k] ∧ (devices ⟨st, exLinks⟩ 1)[k]? = some (.icarus (.sat dv ad)) := by
  constructor
  · obtain ⟨dv, ad, -, -, h3⟩ := Scenario.devices_sat F (a := (0, 0)) (by decide)
    obtain ⟨k, d, q1, q2, q3⟩ := decides F (nfd := exNfd 0 0) (by simp) (fun l => List.Perm.refl l) (a := (0, 0)) (t := (0, 1)) (by decide) (by decide) (i := 0)
      (di := .icarus (.sat dv ad)) (by rw [h3]; rfl) (Or.inl ⟨_, rfl⟩)
    refine ⟨k, q2, ?_⟩
    rcases q3 with ⟨q, -⟩ | ⟨e, rfl, q⟩
    · simp at q
    · rcases end_cases e with rfl | rfl
      · exact q1
      · exfalso
        revert q
        decide
  · intro i hi
    obtain ⟨k, d, q1, q2, q3⟩ := decides F (nfd := exNfd 1 i) (by simp) (fun l => List.Perm.refl l) (a := (0, 1)) (t := (0, 1)) (by decide) (by decide) (i := i)
      (di := .isl (exEnd true)) hi (Or.inr ⟨_, rfl, by decide⟩)
    rcases Scenario.device_at F (by decide) q1 with ⟨dv, ad, rfl⟩ | ⟨e, rfl, he⟩
    · exact ⟨k, dv, ad, q2, q1⟩
    · exfalso
      rcases q3 with ⟨-, x, q⟩ | ⟨e', -, q⟩
      · cases q
      · have : torusDist 1 2 (0, 1) (0, 1) = 0 := by decide
        omega

theorem exObeys {st : IcarusHelper.St Nat Unit} (F : Facts exHost 1 2 exSat st [0, 1, 2, 3]) {s : Network.Sys (Fin 2) (Fin 2) (End exLinks) Int (NoneMac.Sys Int)}
    (h1 : ∀ d, (s.up.sats d).delivered = if d = 0 then [(13, 0)] else []) (h2 : ∀ b, (s.isl.rx (exEnd b)).delivered = if b then [(22, 11, 7)] else [])
    (h3 : (13, ⟨11, 4, 7⟩, false) ∈ (s.isl.tx (exEnd false)).accepted) (h4 : (22, ⟨11, 10, 7, 30⟩) ∈ (s.down.sats 1).accepted) :
    Obeys exHost ⟨st, exLinks⟩ [0, 1, 2, 3] exNfd (exNet (Uplink.noneReceiver Int)) (fun d : Fin 2 => d.val) s 11 (0, 1) 0 106 := by
  intro d i u k hin hrec _
  obtain ⟨⟨k1, r1, r2⟩, r3⟩ := exDecides F
  rcases hin with ⟨rfl, hf⟩ | ⟨e, proto, rfl, hdev, hdel⟩
  · obtain ⟨rfl, rfl⟩ := exFromGround h1 hf
    have e1 := r1.symm.trans hrec
    simp only [Outcome.ok.injEq, List.cons.injEq, Action.sendInterest.injEq, and_true] at e1
    subst e1
    exact ⟨13, Or.inr ⟨_, _, r2, h3, rfl, rfl⟩, Nat.le_refl _, Nat.le_refl _⟩
  · rcases end_cases e with rfl | rfl
    · rw [h2] at hdel
      simp at hdel
    · rw [h2] at hdel
      simp only [if_true, List.mem_singleton, Prod.mk.injEq] at hdel
      obtain ⟨rfl, -, -⟩ := hdel
      obtain ⟨k2, dv, ad, r4, r5⟩ := r3 i hdev
      have e1 := r4.symm.trans hrec
      simp only [Outcome.ok.injEq, List.cons.injEq, Action.sendInterest.injEq, and_true] at e1
      subst e1
      exact ⟨22, Or.inl ⟨dv, ad, _, r5, h4, rfl⟩, Nat.le_refl _, Nat.le_refl _⟩

theorem exShort : Short exOps 10 := by
  unfold Short
  decide

theorem exMid : (∃ s, Network.exec (exNet (Uplink.noneReceiver Int)) (exOps.take 4) = some (.ok s) ∧ (13, 0) ∈ (s.up.sats 0).delivered ∧
      s.up.heard = [(3, 0, ⟨11, 10, ⟨1, [0]⟩, 7, 20⟩)]) ∧
    ∃ s, Network.exec (exNet (Uplink.noneReceiver Int)) (exOps.take 8) = some (.ok s) ∧ (22, 11, 7) ∈ (s.isl.rx (exEnd true)).delivered := by
  constructor
  · refine ⟨_, rfl, ?_⟩; decide
  · refine ⟨_, rfl, ?_⟩; decide

theorem exLoyal {st : IcarusHelper.St Nat Unit} (F : Facts exHost 1 2 exSat st [0, 1, 2, 3]) :
    Loyal exHost ⟨st, exLinks⟩ [0, 1, 2, 3] exNfd (exNet (Uplink.noneReceiver Int)) (fun d : Fin 2 => d.val) exOps 11 (0, 1) := by
  intro pre o post s d v e hx ho
  obtain ⟨⟨k1, r1, r2⟩, r3⟩ := exDecides F
  have hpre : pre = exOps.take pre.length := by rw [e]; simp
  have hone : exOps[pre.length]? = some o := by rw [e]; simp
  have hlt : pre.length < 12 := by
    have : exOps.length = 12 := rfl
    rw [e, List.length_append, List.length_cons] at this
    omega
  generalize hn : pre.length = n at hpre hone hlt
  clear e hn
  subst hpre
  interval_cases n <;> simp only [exOps, List.getElem?_cons_zero, List.getElem?_cons_succ, Option.some.injEq] at hone <;> subst hone <;>
    simp only [sends, Option.some.injEq, Prod.mk.injEq, reduceCtorEq, false_and, Network.Node.sat.injEq] at ho
  · obtain ⟨rfl, rfl, -⟩ := ho
    obtain ⟨⟨s', h1, h2, h3⟩, -⟩ := exMid
    have es := h1.symm.trans hx
    simp only [Option.some.injEq, Outcome.ok.injEq] at es
    subst es
    exact ⟨0, 13, k1, Or.inl ⟨rfl, 0, 0, _, _, h2, by rw [h3]; rfl, rfl, rfl⟩, r1, Or.inr ⟨_, _, _, rfl, r2⟩⟩
  · obtain ⟨rfl, rfl, -⟩ := ho
    obtain ⟨-, s', h1, h2⟩ := exMid
    have es := h1.symm.trans hx
    simp only [Option.some.injEq, Outcome.ok.injEq] at es
    subst es
    obtain ⟨j, hj⟩ := Scenario.end_device st (exEnd true)
    obtain ⟨k2, dv, ad, r4, r5⟩ := r3 j hj
    exact ⟨j, 22, k2, Or.inr ⟨_, _, rfl, hj, h2⟩, r4, Or.inl ⟨_, _, dv, ad, rfl, r5⟩⟩

theorem exLaunched {R : Type} (rx : Uplink.Receiver Int R) : Launched (exNet rx) Network.exHist Network.exAddrs exOps := by
  constructor
  · show ∀ g : Fin 2, (Uplink.target Network.exHist Network.exAddrs (SatAddress.mk3 .little 1 0 (UInt16.ofNat g.val))).isSome
    decide
  · intro g t a h
    simp [exOps] at h

/-- The concrete network meets all hypotheses of `C96_delivered`, … -/
example : ∃ (st : IcarusHelper.St Nat Unit) (s : _), Made exHost 1 2 exSat [0, 1, 2, 3] ⟨st, exLinks⟩ ∧ Network.exec (exNet (Uplink.noneReceiver Int)) exOps = some (.ok s) ∧
    ∃ τ, Gets (exNet (Uplink.noneReceiver Int)) s (.ground 1) τ 11 ∧ 0 ≤ τ ∧ τ ≤ 0 + (torusDist 1 2 (0, 0) (0, 1) + 2) * deadline 0 10 10 5 + (torusDist 1 2 (0, 0) (0, 1) + 1) * 0 := by
  obtain ⟨st, m1, F, m2⟩ := exMade
  obtain ⟨s, x1, x2, x3, x4, x5, x6, x7, x8⟩ := exRun
  exact ⟨st, s, m1, x1, C96_delivered m1 (nfd := exNfd) (fun _ _ => by simp) (fun _ _ l => List.Perm.refl l) (t := (0, 1)) (by decide) rfl (exRealizes m2) (exSetup _) (exLimits _)
    (exLaunched _) exShort x1 (exObeys F x3 x4 x5 x6) x8 x2 rfl (d0 := 0) (dt := 1) rfl (b := (0, 0)) (by decide) rfl rfl (fun _ _ _ => rfl) (fun _ _ _ _ => rfl) (g := 1) (by simp [exNet])
    (fun _ _ _ => rfl) rfl (fun u c h => by simp [exOps] at h) (by decide)⟩

/-- … and of `C96_only`: the packet came to station 1 at time 37. -/
example : ∃ (st : IcarusHelper.St Nat Unit) (s : _), Made exHost 1 2 exSat [0, 1, 2, 3] ⟨st, exLinks⟩ ∧ Network.exec (exNet (Uplink.noneReceiver Int)) exOps = some (.ok s) ∧
    Gets (exNet (Uplink.noneReceiver Int)) s (.ground 1) 37 11 ∧ ∃ dt, placeOf .little ((exNet (Uplink.noneReceiver Int)).satAddr dt) = (0, 1) := by
  obtain ⟨st, m1, F, m2⟩ := exMade
  obtain ⟨s, x1, x2, x3, x4, x5, x6, x7, x8⟩ := exRun
  have hg : Gets (exNet (Uplink.noneReceiver Int)) s (.ground 1) 37 11 := ⟨_, by rw [x7]; exact List.mem_singleton.mpr rfl, rfl⟩
  obtain ⟨dt, h1, -⟩ := C96_only m1 (nfd := exNfd) (fun _ _ => by simp) (fun _ _ l => List.Perm.refl l) (t := (0, 1)) (by decide) (exRealizes m2)
    (fun d => ⟨(0, d.val), ⟨Nat.one_pos, d.isLt⟩, by simp [exSat]⟩) (exSetup _) Network.C73_none_honest Network.none_punctual (exLimits _) (exLaunched _) exShort (exLoyal F) x1 hg
  exact ⟨st, s, m1, x1, hg, dt, h1⟩

end Example

end Geocast
end Icarus
