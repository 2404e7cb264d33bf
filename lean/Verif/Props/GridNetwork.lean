import Verif.Props.GridDistance
import Verif.Props.Network

/-!
# Property C75: the time a packet needs between two ground stations

The network of C73 with the inter-satellite grid of C11: bounds on the number of links and on the time from one station to another, if stations do
not forward packets.
-/

set_option autoImplicit false

namespace Icarus
namespace Network
open GroundSatChannel Grid IslNet

variable {D G E V W P R : Type}

section
variable {net : Net D G E V W P R} {peer : E → E} {hist : List (Nat × Nat × D)} {n s : Nat} {pos : D → Nat × Nat}

/-- The inter-satellite devices that the helper makes on the grid (`dev` gives the satellite at each position) join neighbouring positions. -/
theorem C75_grid {net : Net D G (End (Isl.gridLinks n s)) V W P R} (dev : Nat × Nat → D) (hpos : ∀ v, Inside n s v → pos (dev v) = v)
    (hown : ∀ e, net.own e = dev (owner _ e)) (e : End (Isl.gridLinks n s)) : Linked n s (pos (net.own e)) (pos (net.own (otherEnd _ e))) := by
  have h := linked_iff.mpr ((C60_neighbours n s).1 e)
  rw [hown, hown, hpos _ (linked_inside h).1, hpos _ (linked_inside h).2]
  exact h

theorem joined_linked (hgrid : ∀ e, Linked n s (pos (net.own e)) (pos (net.own (peer e)))) {a b : D}
    (h : Joined net peer hist (.sat a) (.sat b)) : Linked n s (pos a) (pos b) := by
  cases h with
  | isl e => exact hgrid e

/-- From satellite to satellite, a packet crosses at least as many links as there are between their positions. -/
theorem sats_way (hgrid : ∀ e, Linked n s (pos (net.own e)) (pos (net.own (peer e)))) {a : D} {ds : List D} {b : D}
    (h : ((a :: ds).map Node.sat).IsChain (Joined net peer hist)) (hb : (a :: ds).getLast? = some b) : Way n s ds.length (pos a) (pos b) := by
  induction ds generalizing a with
  | nil =>
    simp only [List.getLast?_singleton, Option.some.injEq] at hb
    rw [hb]
    exact .here _
  | cons c cs ih =>
    simp only [List.map_cons, List.isChain_cons_cons] at h
    refine .link (joined_linked hgrid h.1) (ih ?_ ?_)
    · simpa using h.2
    · rw [List.getLast?_cons_cons] at hb; exact hb

end

variable [Fintype G] [Fintype D] [Fintype E] [DecidableEq G] [DecidableEq D] [DecidableEq E]
variable {net : Net D G E V W P R} {w : World D G E W} {peer : E → E} {hist : List (Nat × Nat × D)} {as : List SatAddress} {full : Bool}
  {tgt : SatAddress → Option D} {n s : Nat} {pos : D → Nat × Nat}

/-- A route from a station, if no station forwards the packet: up to a satellite, on from satellite to satellite. -/
theorem route_sats {ops : List (Op D G E W)} {p : Nat} (hno : ∀ g t' t, ¬ Relay net ops (.ground g) t' t p) {mg mi : Nat}
    (hm1 : ∀ u g d, w.ground.admit u g d = true → mg ≤ w.ground.delay u g d)
    (hm2 : ∀ u e, w.isl.admit u e (peer e) = true → mi ≤ w.isl.delay u e (peer e)) {path : List (Node D G)} {t t' c : Nat}
    (h : Route net w peer tgt full ops p path t t' c) {g0 : G} (hg0 : path.head? = some (.ground g0)) :
    ∃ d ds x, (t, x) ∈ requests (net.remote g0) (net.power g0) (Uplink.opsOf g0 (ops.filterMap toUp)) ∧ x.pkt = p ∧ tgt x.dst = some d ∧
      ((path = .ground g0 :: (d :: ds).map .sat ∧ mg + mi * ds.length ≤ c) ∨
        ∃ g b, path = .ground g0 :: (d :: ds).map .sat ++ [.ground g] ∧ (d :: ds).getLast? = some b ∧
          (net.satAddr b = net.remote g ∨ ∃ v, .track g v (net.satAddr b) ∈ ops) ∧ 2 * mg + mi * ds.length ≤ c) := by
  induction h with
  | one hop =>
    simp only [List.head?_cons, Option.some.injEq] at hg0
    subst hg0
    cases hop with
    | up given pkt addressed later admitted arrived =>
      have := hm1 _ _ _ admitted
      exact ⟨_, [], _, given, pkt, addressed, Or.inl ⟨rfl, by simp; omega⟩⟩
  | @more path m m' t0 t1 t2 t' c c' route last relay hop ih =>
    have hne : path ≠ [] := by rintro rfl; simp at last
    have hg0' : path.head? = some (.ground g0) := by
      cases path with
      | nil => exact absurd rfl hne
      | cons a l => simpa using hg0
    obtain ⟨d, ds, x, h1, h2, h3, h4⟩ := ih hg0'
    refine ⟨d, ?_⟩
    rcases h4 with ⟨rfl, h4⟩ | ⟨g, b, rfl, -⟩
    · have hlast : ∃ b, (d :: ds).getLast? = some b ∧ m = .sat b := by
        rw [List.getLast?_cons] at last
        simp only [List.getLast?_map] at last
        cases hb : (d :: ds).getLast? with
        | none => simp at hb
        | some b => rw [hb] at last; exact ⟨b, rfl, by simpa using last.symm⟩
      obtain ⟨b, hb, rfl⟩ := hlast
      cases hop with
      | @down g _ _ u _ len proto given attached tracked later admitted arrived =>
        have := hm1 _ _ _ admitted
        refine ⟨ds, x, h1, h2, h3, Or.inr ⟨g, b, rfl, hb, tracked, by omega⟩⟩
      | @isl e _ u _ len proto given later admitted arrived =>
        have := hm2 _ _ admitted
        refine ⟨ds ++ [net.own (peer e)], x, h1, h2, h3, Or.inl ⟨by simp, ?_⟩⟩
        rw [List.length_append, List.length_singleton, Nat.mul_add, Nat.mul_one]
        omega
    · rw [List.getLast?_append] at last
      simp only [List.getLast?_singleton, Option.some_or, Option.some.injEq] at last
      rw [← last] at relay
      exact absurd relay (hno _ _ _)

/-- If neither satellites bring a packet into the network nor stations forward it, then a station that gets it gets it from some other transmission of
a station, no earlier than after two propagation delays between ground and satellites and as many delays between satellites as the grid has links
between the satellite that the sender tracked when it sent and one that the receiver has tracked. -/
theorem C75_latency (hs : Setup net w peer hist as) (hh : Honest full net.rx)
    (hgrid : ∀ e, Linked n s (pos (net.own e)) (pos (net.own (peer e)))) (hin : ∀ d, Inside n s (pos d)) {mg mi : Nat}
    (hm1 : ∀ u g d, w.ground.admit u g d = true → mg ≤ w.ground.delay u g d)
    (hm2 : ∀ u e, w.isl.admit u e (peer e) = true → mi ≤ w.isl.delay u e (peer e)) {ops : List (Op D G E W)} (hl : Launched net hist as ops)
    {st : Sys D G E W R} (h : exec net ops = some (.ok st)) {g : G} {t p : Nat} (hg : Gets net st (.ground g) t p)
    (hsat : ∀ d t0, ¬ Origin net ops (.sat d) t0 p) (hno : ∀ g t' t, ¬ Relay net ops (.ground g) t' t p) :
    ∃ g0 t0 a b x, Origin net ops (.ground g0) t0 p ∧
      (t0, x) ∈ requests (net.remote g0) (net.power g0) (Uplink.opsOf g0 (ops.filterMap toUp)) ∧ x.pkt = p ∧ Uplink.target hist as x.dst = some a ∧
      (net.satAddr b = net.remote g ∨ ∃ v, .track g v (net.satAddr b) ∈ ops) ∧ t0 + 2 * mg + mi * dist n s (pos a) (pos b) ≤ t := by
  obtain ⟨n0, path, t0, c, h1, h2, h3, h4⟩ := C73_route hs hh hl h hg
  cases n0 with
  | sat d => exact absurd h1 (hsat d t0)
  | ground g0 =>
    obtain ⟨a, ds, x, k1, k2, k3, k4⟩ := route_sats hno hm1 hm2 h2 h3
    have hj := h2.joined
    have ht := h2.time
    rcases k4 with ⟨rfl, -⟩ | ⟨g', b, rfl, k5, k6, k7⟩
    · rw [List.getLast?_cons] at h4
      cases hb : (a :: ds).getLast? with
      | none => simp at hb
      | some b => simp only [List.getLast?_map, hb] at h4; simp at h4
    · have e : g' = g := by
        rw [List.getLast?_append] at h4
        simpa using h4
      subst e
      refine ⟨g0, t0, a, b, x, h1, k1, k2, k3, k6, ?_⟩
      have hway : Way n s ds.length (pos a) (pos b) := by
        refine sats_way hgrid (hist := hist) ?_ k5
        have := (List.isChain_append.mp hj).1
        rw [List.isChain_cons] at this
        exact this.2
      have := Nat.mul_le_mul_left mi (C74_no_shorter (hin b) hway)
      omega

/-- In the example, satellite 0 and 1 are neighbours in a plane of two. -/
example : (∀ e : Fin 2, Linked 1 2 ((fun d : Fin 2 => (0, d.val)) ((exNet (Uplink.noneReceiver Int)).own e))
      ((fun d : Fin 2 => (0, d.val)) ((exNet (Uplink.noneReceiver Int)).own (exPeer e)))) ∧ ∀ d : Fin 2, Inside 1 2 (0, d.val) := by
  refine ⟨fun e => ?_, fun d => ⟨by omega, d.2⟩⟩
  show Linked 1 2 (0, e.val) (0, (exPeer e).val)
  have : ∀ e : Fin 2, TorusAdj 1 2 (0, e.val) (0, (exPeer e).val) := by decide
  exact linked_iff.mpr (this e)

/-- No station forwards packet 11 there: the only one that sends it does so at the beginning. -/
example : ∀ g t' t, ¬ Relay (exNet (Uplink.noneReceiver Int)) exOps (.ground g) t' t 11 := by
  rintro g t' t ⟨pre, o, post, s, e, ho, hx, hg, -⟩
  have hpre : pre = exOps.take pre.length := by rw [e]; simp
  have hat : exOps[pre.length]? = some o := by rw [e]; simp
  generalize pre.length = k at hpre hat
  subst hpre
  have hk : k < 12 := by
    by_contra hk
    rw [List.getElem?_eq_none (by simp [exOps]; omega)] at hat
    simp at hat
  interval_cases k <;> simp only [exOps, List.getElem?_cons_succ, List.getElem?_cons_zero, Option.some.injEq] at hat <;> subst hat <;>
    simp only [sends, reduceCtorEq, Option.some.injEq, Prod.mk.injEq, Node.ground.injEq, false_and] at ho
  obtain ⟨u, hu, -⟩ := hg
  simp only [List.take_zero, exec, runFrom, Option.some.injEq, Outcome.ok.injEq] at hx
  rw [← hx] at hu
  simp [Sys.init, Downlink.Sys.init, GroundStaRx.Sys.init] at hu

/-- A grid of 3 by 4 whose satellites are named by their positions. -/
example : (∀ v, Inside 3 4 v → id (id v) = v) ∧ 24 = (Isl.gridLinks 3 4).length := by
  refine ⟨fun v _ => rfl, by decide⟩

end Network
end Icarus
