import Verif.Props.Network
import Verif.Props.QueueDelay

/-!
# How long packets are on their way at most (C95)

The queue bounds of C94 put together with the channels and receivers: every link of the network has a greatest delay from `Send` to reception, every journey one that
adds up, and a packet that a device has accepted is at the other end by then if the link is open.
-/

set_option autoImplicit false

namespace Icarus
namespace Network
open GroundSatChannel QueueDelay

/-! ## Devices with any queue -/

/-- When a packet is accepted, the queue holds at most `C` ticks of work, if packets last at most `L` ticks and need `B` more each. -/
def Within {X : Type} (len : X → Nat) (accept : List X → X → Bool) (B L C : Nat) : Prop :=
  ∀ q x, (∀ y ∈ q, len y ≤ L) → len x ≤ L → accept q x = true → (q.map (fun y => B + len y)).sum ≤ C

theorem within_packets {X : Type} (len : X → Nat) (K : UInt32) (bytes : X → Nat) (B L : Nat) :
    Within len (Queue.dropTail .packets K bytes) B L ((K.toNat - 1) * (B + L)) := by
  intro q x hq _ ha
  simp only [Queue.dropTail, decide_eq_true_eq] at ha
  have hsum : ∀ l : List X, (∀ y ∈ l, len y ≤ L) → (l.map (fun y => B + len y)).sum ≤ l.length * (B + L) := by
    intro l
    induction l with
    | nil => simp
    | cons y l ih =>
      intro hl
      have h1 := hl y (by simp)
      have h2 := ih (fun z hz => hl z (by simp [hz]))
      simp only [List.map_cons, List.sum_cons, List.length_cons, Nat.add_mul] at h2 ⊢
      omega
  exact Nat.le_trans (hsum q hq) (Nat.mul_le_mul_right _ (by omega))

section
variable {W : Type} {debug : Bool}

/-- The ground-facing device of a satellite, if nothing is scheduled before `T`. -/
theorem down_on_air {accept : List (Sat2Ground.Entry W) → Sat2Ground.Entry W → Bool} {power : W} {L C : Nat} (hb : Within Sat2Ground.Entry.len accept 0 L C)
    {ops : List (Sat2Ground.Op W)} {s : Sat2Ground.Sys W} (hL : ∀ y ∈ broadcasts power ops, y.2.len ≤ L)
    (h : Sat2Ground.exec debug accept power ops = some (.ok s)) {T : Nat} (hT : ∀ e ∈ s.events, T ≤ e.1) :
    (∀ f ∈ s.aired, ∃ a, (a, f.2) ∈ s.accepted ∧ a ≤ f.1 ∧ f.1 ≤ a + C + L) ∧
    (∀ a x, (a, x) ∈ s.accepted → a + C + L < T → ∃ k, (k, x) ∈ s.aired ∧ a ≤ k ∧ k ≤ a + C + L) := by
  have hsim := down_sim h
  have hreq : ∀ (ops : List (Sat2Ground.Op W)) (w : W), requests (SatAddress.mk3 .little 0 0 0) w (ops.map downOp) = (broadcasts w ops).map (fun y => (y.1, ofDown y.2)) := by
    intro ops
    induction ops with
    | nil => intro w; rfl
    | cons o ops ih => intro w; cases o <;> simp [downOp, requests, broadcasts, ih, ofDown]
  have hinj : ∀ x y : Sat2Ground.Entry W, ofDown x = ofDown y → x = y := by
    intro x y hxy
    have := congrArg QueueDelay.toDown hxy
    exact this
  have hbd : Bounded (fun (q : List (GroundSta.Entry W)) x => accept (q.map QueueDelay.toDown) (QueueDelay.toDown x)) 0 L C := by
    intro q x hq hx ha
    have := hb (q.map QueueDelay.toDown) (QueueDelay.toDown x) (by
      intro y hy
      obtain ⟨z, hz, rfl⟩ := List.mem_map.mp hy
      exact hq z hz) hx ha
    rw [List.map_map] at this
    exact this
  obtain ⟨h1, h2⟩ := on_air_by none_prompt hbd (L := L) (by
    intro y hy
    rw [hreq] at hy
    obtain ⟨z, hz, rfl⟩ := List.mem_map.mp hy
    exact hL z hz) hsim (T := T) (by
    intro e he
    obtain ⟨z, hz, rfl⟩ := List.mem_map.mp he
    exact hT z hz)
  simp only [Nat.zero_add, Nat.add_zero] at h1 h2
  constructor
  · intro f hf
    obtain ⟨a, ha, h3⟩ := h1 (f.1, ofDown f.2) (List.mem_map.mpr ⟨f, hf, rfl⟩)
    obtain ⟨z, hz, heq⟩ := List.mem_map.mp ha
    simp only [Prod.mk.injEq] at heq
    obtain ⟨rfl, heq⟩ := heq
    have := hinj _ _ heq
    exact ⟨z.1, by rw [← this]; exact hz, h3⟩
  · intro a x hx hlate
    obtain ⟨k, hk, h3⟩ := h2 a (ofDown x) (List.mem_map.mpr ⟨(a, x), hx, rfl⟩) hlate
    obtain ⟨z, hz, heq⟩ := List.mem_map.mp hk
    simp only [Prod.mk.injEq] at heq
    obtain ⟨rfl, heq⟩ := heq
    have := hinj _ _ heq
    exact ⟨z.1, by rw [← this]; exact hz, h3⟩

/-- An inter-satellite device, likewise. -/
theorem isl_on_air {accept : List SatNet.Entry → SatNet.Entry → Bool} {L C : Nat} (hb : Within SatNet.Entry.len accept 0 L C)
    {ops : List SatNet.Op} {s : SatNet.Sys} (hL : ∀ y ∈ isends ops, y.2.len ≤ L) (h : SatNet.exec debug accept ops = some (.ok s))
    {T : Nat} (hT : ∀ e ∈ s.events, T ≤ e.1) :
    (∀ f ∈ s.aired, ∃ y ∈ s.accepted, y.2.1 = f.2.1 ∧ y.1 ≤ f.1 ∧ f.1 ≤ y.1 + C + L) ∧
    (∀ y ∈ s.accepted, y.1 + C + L < T → ∃ f ∈ s.aired, f.2.1 = y.2.1 ∧ y.1 ≤ f.1 ∧ f.1 ≤ y.1 + C + L) := by
  obtain ⟨σ, hsim, hr⟩ := isl_sim h
  have hreq : ∀ (ops : List SatNet.Op), requests (SatAddress.mk3 .little 0 0 0) () (ops.map islOp) = (isends ops).map (fun y => (y.1, ofIsl y.2)) := by
    intro ops
    induction ops with
    | nil => rfl
    | cons o ops ih => cases o <;> simp [islOp, requests, isends, ih, ofIsl]
  have hinj : ∀ x y : SatNet.Entry, ofIsl x = ofIsl y → x = y := by
    intro x y hxy
    exact congrArg QueueDelay.toIsl hxy
  have hbd : Bounded (fun (q : List (GroundSta.Entry Unit)) x => accept (q.map QueueDelay.toIsl) (QueueDelay.toIsl x)) 0 L C := by
    intro q x hq hx ha
    have := hb (q.map QueueDelay.toIsl) (QueueDelay.toIsl x) (by
      intro y hy
      obtain ⟨z, hz, rfl⟩ := List.mem_map.mp hy
      exact hq z hz) hx ha
    rw [List.map_map] at this
    exact this
  obtain ⟨h1, h2⟩ := on_air_by none_prompt hbd (L := L) (by
    intro y hy
    rw [hreq] at hy
    obtain ⟨z, hz, rfl⟩ := List.mem_map.mp hy
    exact hL z hz) hsim (T := T) (by
    intro e he
    have h5 : (e.1, ()) ∈ s.events.map (fun e => (e.1, ())) := by rw [← hr.times]; exact List.mem_map.mpr ⟨e, he, rfl⟩
    obtain ⟨z, hz, h6⟩ := List.mem_map.mp h5
    simp only [Prod.mk.injEq, and_true] at h6
    rw [← h6]
    exact hT z hz)
  simp only [Nat.zero_add, Nat.add_zero] at h1 h2
  rw [hr.aired, hr.accepted] at h1 h2
  constructor
  · intro f hf
    obtain ⟨a, ha, h3⟩ := h1 (f.1, ofIsl f.2.1) (List.mem_map.mpr ⟨f, hf, rfl⟩)
    obtain ⟨z, hz, heq⟩ := List.mem_map.mp ha
    simp only [Prod.mk.injEq] at heq
    obtain ⟨rfl, heq⟩ := heq
    exact ⟨z, hz, hinj _ _ heq, h3⟩
  · intro y hy hlate
    obtain ⟨k, hk, h3⟩ := h2 y.1 (ofIsl y.2.1) (List.mem_map.mpr ⟨y, hy, rfl⟩) hlate
    obtain ⟨z, hz, heq⟩ := List.mem_map.mp hk
    simp only [Prod.mk.injEq] at heq
    obtain ⟨rfl, heq⟩ := heq
    exact ⟨z, hz, hinj _ _ heq, h3⟩

end

/-! ## Receivers that pass up at the end of the frame -/

section
variable {P R : Type}

/-- Whatever is passed up is passed up at the end of its frame. -/
def Punctual (rx : Uplink.Receiver P R) : Prop :=
  ∀ rops r, runFrom rx.step rx.init rops = some (.ok r) → ∀ y ∈ rx.delivered r, ∃ f ∈ Aloha.frames rops, f.uid = y.2 ∧ y.1 = f.start + f.dur

theorem none_punctual : Punctual (Uplink.noneReceiver P) := by
  intro rops r h y hy
  have h' : NoneMac.exec rops = some r := by
    rw [Uplink.none_run] at h
    obtain ⟨r1, h1, e⟩ := Option.map_eq_some_iff.mp h
    simp only [Outcome.ok.injEq] at e
    subst e
    exact h1
  obtain ⟨f, hf, e⟩ := List.mem_map.mp ((C27_receive h').1.subset (List.mem_append_left _ hy))
  subst e
  exact ⟨f, hf, rfl, rfl⟩

theorem aloha_punctual [Zero P] [Add P] (lost : P → P → Bool) : Punctual (Uplink.alohaReceiver lost) := by
  intro rops r h
  have := run_induction (step := (Uplink.alohaReceiver lost).step) (P := fun rops (r : Aloha.Sys P) => (∀ f ∈ r.pending, f ∈ Aloha.frames rops) ∧
    ∀ y ∈ r.delivered, ∃ f ∈ Aloha.frames rops, f.uid = y.2 ∧ y.1 = f.start + f.dur)
    ⟨by simp [Uplink.alohaReceiver, Aloha.Sys.init], by simp [Uplink.alohaReceiver, Aloha.Sys.init]⟩ ?_ h
  · exact this.2
  rintro ops o s s' - ⟨i1, i2⟩ hst
  have i2' : ∀ y ∈ s.delivered, ∃ f ∈ Aloha.frames (ops ++ [o]), f.uid = y.2 ∧ y.1 = f.start + f.dur := fun y hy => by
    obtain ⟨f, hf, e⟩ := i2 y hy; exact ⟨f, mem_frames_snoc hf, e⟩
  simp only [Uplink.alohaReceiver] at hst
  obtain ⟨x, hx, e⟩ := Option.map_eq_some_iff.mp hst
  simp only [Outcome.ok.injEq] at e
  subst e
  cases o with
  | arrive f =>
    simp only [Aloha.step] at hx
    split at hx
    · simp only [Option.some.injEq] at hx
      subst hx
      refine ⟨fun g hg => ?_, i2'⟩
      rcases Aloha.mem_schedule.mp hg with rfl | hg
      · rw [Aloha.frames_append]; simp [Aloha.frames]
      · exact mem_frames_snoc (i1 g hg)
    · simp at hx
  | finish =>
    simp only [Aloha.step] at hx
    split at hx
    · simp at hx
    · rename_i f rest hp
      simp only [Option.some.injEq] at hx
      subst hx
      refine ⟨fun g hg => mem_frames_snoc (i1 g (by rw [hp]; exact List.mem_cons_of_mem _ hg)), fun y hy => ?_⟩
      simp only [List.mem_append] at hy
      rcases hy with hy | hy
      · exact i2' y hy
      · split at hy
        · rw [List.mem_singleton] at hy
          subst hy
          exact ⟨f, mem_frames_snoc (i1 f (by rw [hp]; simp)), rfl, rfl⟩
        · simp at hy

end

/-! ## One link -/

section
variable {D G E V W P R : Type}

/-- MACs put every frame on the air within `B` ticks, queues hold at most `C` ticks of work when they accept a packet, open links have delays of at most `M`. -/
structure Limits (net : Net D G E V W P R) (w : World D G E W) (peer : E → E) (B L C M : Nat) : Prop where
  mac : ∀ g, Prompt (net.mac g) B
  station : ∀ g, Within GroundSta.Entry.len (net.accept g) B L C
  sat : ∀ d, Within Sat2Ground.Entry.len (net.satAccept d) 0 L C
  isl : ∀ e, Within SatNet.Entry.len (net.isl.accept e) 0 L C
  ground : ∀ u g d, w.ground.admit u g d = true → w.ground.delay u g d ≤ M
  link : ∀ u e, w.isl.admit u e (peer e) = true → w.isl.delay u e (peer e) ≤ M

/-- The transmission time of what is given to `Send`. -/
def lasts : Op D G E W → Option Nat
  | .send _ _ _ len _ => some len
  | .sat _ (.send _ _ len _) => some len
  | .isl (.tx _ (.send _ _ len _)) => some len
  | _ => none

/-- No packet lasts longer than `L`. -/
def Short (ops : List (Op D G E W)) (L : Nat) : Prop := ∀ o ∈ ops, ∀ len ∈ lasts o, len ≤ L

/-- From `Send` to the end of reception at the other end. -/
def deadline (B L C M : Nat) : Nat := C + (B + L) + B + M + L

theorem Short.left {a b : List (Op D G E W)} {L : Nat} (h : Short (a ++ b) L) : Short a L :=
  fun o ho => h o (List.mem_append_left _ ho)

variable [Fintype G] [Fintype D] [Fintype E] [DecidableEq G] [DecidableEq D] [DecidableEq E]

omit [Fintype G] [Fintype D] [Fintype E] [DecidableEq D] [DecidableEq E] in
theorem Short.up {ops : List (Op D G E W)} {L : Nat} (h : Short ops L) (g : G) (remote : SatAddress) (power : W) :
    ∀ y ∈ requests remote power (Uplink.opsOf g (ops.filterMap toUp)), y.2.len ≤ L := by
  intro y hy
  obtain ⟨o, ho, e⟩ := List.mem_filterMap.mp (mem_opsOf.mp (mem_requests hy))
  cases o with
  | send g' t' pkt' len proto =>
    simp only [toUp, Option.some.injEq, Uplink.Op.station.injEq, GroundSta.Op.send.injEq] at e
    obtain ⟨-, -, -, rfl, -⟩ := e
    exact h _ ho _ rfl
  | _ => simp [toUp] at e

theorem mem_broadcasts {v : W} {ops : List (Sat2Ground.Op W)} {y : Nat × Sat2Ground.Entry W} (hy : y ∈ broadcasts v ops) :
    .send y.1 y.2.pkt y.2.len y.2.proto ∈ ops := by
  induction ops generalizing v with
  | nil => simp [broadcasts] at hy
  | cons o os ih =>
    cases o with
    | send t pkt len proto =>
      simp only [broadcasts, List.mem_cons] at hy
      rcases hy with rfl | hy
      · simp
      · simp [ih hy]
    | setPower t u => simp [ih (v := u) hy]
    | run => simp [ih (v := v) hy]

theorem mem_isends {ops : List SatNet.Op} {y : Nat × SatNet.Entry} (hy : y ∈ isends ops) : .send y.1 y.2.pkt y.2.len y.2.proto ∈ ops := by
  induction ops with
  | nil => simp [isends] at hy
  | cons o os ih =>
    cases o with
    | send t pkt len proto =>
      simp only [isends, List.mem_cons] at hy
      rcases hy with rfl | hy
      · simp
      · simp [ih hy]
    | run => simp [ih hy]

omit [Fintype G] [Fintype D] [Fintype E] [DecidableEq G] [DecidableEq E] in
theorem mem_downOps {ops : List (Op D G E W)} {d : D} {o : Sat2Ground.Op W} (h : o ∈ Downlink.opsOf d (ops.filterMap toDown)) : .sat d o ∈ ops := by
  unfold Downlink.opsOf at h
  obtain ⟨o1, ho, e⟩ := List.mem_filterMap.mp h
  obtain ⟨o', ho', e'⟩ := List.mem_filterMap.mp ho
  cases o1 with
  | sat d' x =>
    simp only at e
    split at e
    · rename_i hdd
      subst hdd
      simp only [Option.some.injEq] at e
      subst e
      cases o' with
      | sat d'' x' =>
        simp only [toDown, Option.some.injEq, Downlink.Op.sat.injEq] at e'
        obtain ⟨rfl, rfl⟩ := e'
        exact ho'
      | _ => simp [toDown] at e'
    · simp at e
  | _ => simp at e

omit [Fintype G] [Fintype D] [Fintype E] [DecidableEq G] [DecidableEq D] in
theorem mem_islOps {ops : List (Op D G E W)} {d : E} {o : SatNet.Op} (h : o ∈ IslNet.opsOf d (ops.filterMap toIsl)) : .isl (.tx d o) ∈ ops := by
  unfold IslNet.opsOf at h
  obtain ⟨o1, ho, eo⟩ := List.mem_filterMap.mp h
  obtain ⟨o', ho', e'⟩ := List.mem_filterMap.mp ho
  cases o1 with
  | tx d' x =>
    simp only at eo
    split at eo
    · rename_i hdd
      subst hdd
      simp only [Option.some.injEq] at eo
      subst eo
      cases o' with
      | isl x' =>
        simp only [toIsl, Option.some.injEq] at e'
        subst e'
        exact ho'
      | _ => simp [toIsl] at e'
    · simp at eo
  | _ => simp at eo

omit [Fintype G] [Fintype D] [Fintype E] [DecidableEq G] [DecidableEq E] in
theorem Short.down {ops : List (Op D G E W)} {L : Nat} (h : Short ops L) (d : D) (power : W) :
    ∀ y ∈ broadcasts power (Downlink.opsOf d (ops.filterMap toDown)), y.2.len ≤ L :=
  fun _ hy => h _ (mem_downOps (mem_broadcasts hy)) _ rfl

omit [Fintype G] [Fintype D] [Fintype E] [DecidableEq G] [DecidableEq D] in
theorem Short.isl {ops : List (Op D G E W)} {L : Nat} (h : Short ops L) (e : E) :
    ∀ y ∈ isends (IslNet.opsOf e (ops.filterMap toIsl)), y.2.len ≤ L :=
  fun _ hy => h _ (mem_islOps (mem_isends hy)) _ rfl

variable {net : Net D G E V W P R} {w : World D G E W} {peer : E → E} {hist : List (Nat × Nat × D)} {as : List SatAddress}

theorem down_by (hs : Setup net w peer hist as) {B L C M : Nat} (hlim : Limits net w peer B L C M)
    {ops : List (Op D G E W)} (hshort : Short ops L) {s : Sys D G E W R} (h : exec net ops = some (.ok s))
    {g : G} {t : Nat} {u : GroundStaRx.Up} (hu : (t, u) ∈ (s.down.stations g).delivered) :
    ∃ d a len proto c, .sat d (.send a u.pkt len proto) ∈ ops ∧ (net.satAddr d = net.remote g ∨ ∃ v, .track g v (net.satAddr d) ∈ ops) ∧
      Hop net w peer (Uplink.target hist as) true ops u.pkt (.sat d) a (.ground g) t c ∧ t ≤ a + deadline B L C M := by
  obtain ⟨h1, h2, h3⟩ := C73_parts h
  unfold deadline
  obtain ⟨d, z, z1, z2, z3, z4, z5, z6⟩ := down_source hs h hu
  have hst := Downlink.C59_satellite h2 d
  obtain ⟨a, ha, a1, a2⟩ := (down_on_air (hlim.sat d) (hshort.down d _) hst (T := 0) (fun _ _ => Nat.zero_le _)).1 z z1
  have hreq := (C38_accepted_or_dropped hst).2.subset ha
  have hlen := hshort.down d _ _ hreq
  have hdel := hlim.ground _ _ _ z3
  have hop : .sat d (.send a u.pkt z.2.len z.2.proto) ∈ ops := by rw [← z4]; exact mem_downOps (mem_broadcasts hreq)
  refine ⟨d, a, _, _, _, hop, z5, .down (u := z.1) hop z2 z5 a1 z3 (by omega), ?_⟩
  simp only at hlen; omega

theorem up_by (hs : Setup net w peer hist as) (hh : Honest true net.rx) (hp : Punctual net.rx) {B L C M : Nat} (hlim : Limits net w peer B L C M)
    {ops : List (Op D G E W)} (hl : Launched net hist as ops) (hshort : Short ops L) {s : Sys D G E W R} (h : exec net ops = some (.ok s))
    {d : D} {t k i ta p : Nat} {f : Uplink.Flight W} (k1 : (t, k) ∈ net.rx.delivered (s.up.sats d)) (k2 : s.up.heard[i]? = some (ta, d, f))
    (k3 : net.rx.key i f.pkt = k) (k4 : f.pkt = p) :
    ∃ g a c, Hop net w peer (Uplink.target hist as) true ops p (.ground g) a (.sat d) t c ∧ t ≤ a + deadline B L C M := by
  obtain ⟨h1, h2, h3⟩ := C73_parts h
  unfold deadline
  obtain ⟨g, z, fr, hz, hd', hadm, e1, e2, e3, e4⟩ := up_source hs hh (Q := fun f t => t = f.start + f.dur) hp hl h k1 k2 k3 k4
  have hst := Uplink.C55_station h1 g
  obtain ⟨a, ha, a1, a2⟩ := (on_air_by (hlim.mac g) (hlim.station g) (hshort.up g _ _) hst (T := 0) (fun _ _ => Nat.zero_le _)).1 z hz
  have hreq := (C34_accepted_or_dropped hst).2.subset ha
  have hlen := hshort.up g _ _ _ hreq
  have hdel := hlim.ground _ _ _ hadm
  simp only at hlen
  rw [e2, e3] at e4
  exact ⟨g, a, _, .up (u := z.1) (x := z.2) hreq e1 hd' a1 hadm (by simp only [if_true]; omega), by omega⟩

theorem isl_by (hs : Setup net w peer hist as) {B L C M : Nat} (hlim : Limits net w peer B L C M)
    {ops : List (Op D G E W)} (hshort : Short ops L) {s : Sys D G E W R} (h : exec net ops = some (.ok s))
    {e : E} {t p : Nat} {proto : UInt16} (k1 : (t, p, proto) ∈ (s.isl.rx e).delivered) :
    ∃ d a len proto' c, peer d = e ∧ .isl (.tx d (.send a p len proto')) ∈ ops ∧
      Hop net w peer (Uplink.target hist as) true ops p (.sat (net.own d)) a (.sat (net.own e)) t c ∧ t ≤ a + deadline B L C M := by
  obtain ⟨h1, h2, h3⟩ := C73_parts h
  unfold deadline
  obtain ⟨d, z, hz, hadm, hpe, hpk, ht⟩ := isl_source hs h k1
  have hst := IslNet.C60_sender h3 d
  unfold IslNet.sent at hz
  obtain ⟨f, hf, rfl⟩ := List.mem_map.mp hz
  obtain ⟨y, hy, y1, y2, y3⟩ := (isl_on_air (hlim.isl d) (hshort.isl d) hst (T := 0) (fun _ _ => Nat.zero_le _)).1 f hf
  have hreq := (C39_accepted_or_dropped hst).2.subset (List.mem_map.mpr ⟨y, hy, rfl⟩)
  have hlen := hshort.isl d _ hreq
  have hdel := hlim.link _ _ hadm
  have hsend := mem_islOps (mem_isends hreq)
  simp only [arrival, y1] at hlen hsend
  simp only at hpk ht hadm hdel
  subst hpe hpk
  exact ⟨d, y.1, _, _, _, rfl, hsend, .isl (u := f.1) hsend y2 hadm (by omega), by omega⟩

/-- **One link.**  Whatever a node gets was given to `Send` by a neighbour at most `deadline` ticks before: at most `C + B + L` until it is handed to the MAC, `B` until it is
on the air, `M` of propagation and `L` of transmission. -/
theorem C95_hop (hs : Setup net w peer hist as) (hh : Honest true net.rx) (hp : Punctual net.rx) {B L C M : Nat} (hlim : Limits net w peer B L C M)
    {ops : List (Op D G E W)} (hl : Launched net hist as ops) (hshort : Short ops L) {s : Sys D G E W R} (h : exec net ops = some (.ok s))
    {n : Node D G} {t p : Nat} (hg : Gets net s n t p) :
    ∃ n' t' c, Hop net w peer (Uplink.target hist as) true ops p n' t' n t c ∧ t ≤ t' + deadline B L C M := by
  cases n with
  | ground g =>
    obtain ⟨u, hu, rfl⟩ := hg
    obtain ⟨d, a, _, _, c, -, -, h1, h2⟩ := down_by hs hlim hshort h hu
    exact ⟨_, a, c, h1, h2⟩
  | sat d =>
    rcases hg with ⟨k, i, ta, f, k1, k2, k3, k4⟩ | ⟨e, proto, rfl, k1⟩
    · obtain ⟨g, a, c, h1, h2⟩ := up_by hs hh hp hlim hl hshort h k1 k2 k3 k4
      exact ⟨_, a, c, h1, h2⟩
    · obtain ⟨d, a, _, _, c, -, -, h1, h2⟩ := isl_by hs hlim hshort h k1
      exact ⟨_, a, c, h1, h2⟩

/-! ## Journeys -/

/-- A chain of hops as in `Route`, each taking at most `Δ`; last the time that the nodes on the way keep the packet before they send it on. -/
inductive Trip (net : Net D G E V W P R) (w : World D G E W) (peer : E → E) (tgt : SatAddress → Option D) (full : Bool)
    (ops : List (Op D G E W)) (p Δ : Nat) : List (Node D G) → Nat → Nat → Nat → Prop
  | one {n n' : Node D G} {t t' c : Nat} (hop : Hop net w peer tgt full ops p n t n' t' c) (soon : t' ≤ t + Δ) :
      Trip net w peer tgt full ops p Δ [n, n'] t t' 0
  | more {path : List (Node D G)} {n n' : Node D G} {t0 t1 t2 t' c' kept : Nat} (trip : Trip net w peer tgt full ops p Δ path t0 t1 kept)
      (last : path.getLast? = some n) (relay : Relay net ops n t1 t2 p) (hop : Hop net w peer tgt full ops p n t2 n' t' c') (soon : t' ≤ t2 + Δ) :
      Trip net w peer tgt full ops p Δ (path ++ [n']) t0 t' (kept + (t2 - t1))

section
variable {full : Bool} {tgt : SatAddress → Option D} {ops : List (Op D G E W)} {p Δ : Nat} {path : List (Node D G)} {t t' kept : Nat}

theorem Trip.mono {b : List (Op D G E W)} (h : Trip net w peer tgt full ops p Δ path t t' kept) :
    Trip net w peer tgt full (ops ++ b) p Δ path t t' kept := by
  induction h with
  | one hop soon => exact .one hop.mono soon
  | more _ last relay hop soon ih => exact .more ih last relay.mono hop.mono soon

/-- A trip is a route (C73). -/
theorem Trip.route (h : Trip net w peer tgt full ops p Δ path t t' kept) : ∃ c, Route net w peer tgt full ops p path t t' c := by
  induction h with
  | one hop soon => exact ⟨_, .one hop⟩
  | more _ last relay hop soon ih =>
    obtain ⟨c, hc⟩ := ih
    exact ⟨_, .more hc last relay hop⟩

theorem Trip.two (h : Trip net w peer tgt full ops p Δ path t t' kept) : 2 ≤ path.length := by
  induction h with
  | one hop soon => simp
  | more _ last relay hop soon ih => simp; omega

theorem Trip.time (h : Trip net w peer tgt full ops p Δ path t t' kept) : t' ≤ t + kept + (path.length - 1) * Δ := by
  induction h with
  | one hop soon => simpa using soon
  | @more path n n' t0 t1 t2 t' c' kept trip last relay hop soon ih =>
    have := trip.two
    obtain ⟨k, hk⟩ : ∃ k, path.length = k + 1 := ⟨path.length - 1, by omega⟩
    rw [hk] at ih
    rw [List.length_append, hk]
    simp only [Nat.add_sub_cancel, List.length_singleton, Nat.add_mul, Nat.one_mul] at ih ⊢
    omega

theorem Trip.prompt {H : Nat} (h : Trip net w peer tgt full ops p Δ path t t' kept) (hH : ∀ n t1 t2, Relay net ops n t1 t2 p → t2 ≤ t1 + H) :
    kept ≤ (path.length - 2) * H := by
  induction h with
  | one hop soon => simp
  | @more path n n' t0 t1 t2 t' c' kept trip last relay hop soon ih =>
    have := trip.two
    have := hH _ _ _ relay
    obtain ⟨k, hk⟩ : ∃ k, path.length = k + 2 := ⟨path.length - 2, by omega⟩
    rw [hk, Nat.add_sub_cancel] at ih
    have e : (path ++ [n']).length - 2 = k + 1 := by simp [hk]
    rw [e, Nat.add_mul, Nat.one_mul]
    omega

end

/-- **Journeys.**  Whatever a node gets was brought into the network by some node and came from there over a chain of links, in at most the time that the nodes on
the way kept it, plus `deadline` for each link.  With nodes that send on within `H` ticks what they have got (`0`: at once), that is at most
`deadline` for each link and `H` for each node on the way. -/
theorem C95_journey (hs : Setup net w peer hist as) (hh : Honest true net.rx) (hp : Punctual net.rx) {B L C M : Nat} (hlim : Limits net w peer B L C M)
    {ops : List (Op D G E W)} (hl : Launched net hist as ops) (hshort : Short ops L) {s : Sys D G E W R} (h : exec net ops = some (.ok s))
    {n : Node D G} {t p : Nat} (hg : Gets net s n t p) :
    ∃ n0 path t0 kept, Origin net ops n0 t0 p ∧ Trip net w peer (Uplink.target hist as) true ops p (deadline B L C M) path t0 t kept ∧
      path.head? = some n0 ∧ path.getLast? = some n ∧ t ≤ t0 + kept + (path.length - 1) * deadline B L C M ∧
      ∀ H, (∀ n t1 t2, Relay net ops n t1 t2 p → t2 ≤ t1 + H) → t ≤ t0 + (path.length - 1) * deadline B L C M + (path.length - 2) * H := by
  suffices hmain : ∃ n0 path t0 kept, Origin net ops n0 t0 p ∧ Trip net w peer (Uplink.target hist as) true ops p (deadline B L C M) path t0 t kept ∧
      path.head? = some n0 ∧ path.getLast? = some n by
    obtain ⟨n0, path, t0, kept, h1, h2, h3, h4⟩ := hmain
    refine ⟨n0, path, t0, kept, h1, h2, h3, h4, h2.time, fun H hH => ?_⟩
    have := h2.time
    have := h2.prompt hH
    omega
  induction hlen : ops.length using Nat.strong_induction_on generalizing ops s n t with
  | _ len ih =>
  obtain ⟨n', t', c, hop, hsoon⟩ := C95_hop hs hh hp hlim hl hshort h hg
  obtain ⟨o, ho, hsend⟩ := hop.sends
  obtain ⟨pre, post, rfl⟩ := List.append_of_mem ho
  have hsplit : ∃ s0 s1, exec net pre = some (.ok s0) ∧ step net s0 o = some (.ok s1) := by
    have h' : runFrom (step net) (Sys.init net) ((pre ++ [o]) ++ post) = some (.ok s) := by
      rw [List.append_assoc]; exact h
    rw [runFrom_append] at h'
    split at h'
    · rename_i s1 h1
      obtain ⟨s0, h0, h2⟩ := runFrom_snoc.mp h1
      exact ⟨s0, s1, h0, h2⟩
    · rename_i hno
      exact absurd h' (hno s)
  obtain ⟨s0, s1, h0, h1⟩ := hsplit
  by_cases hprev : ∃ t'', Gets net s0 n' t'' p
  · obtain ⟨t'', hg'⟩ := hprev
    have hle := gets_before hh h0 h1 hsend hg'
    obtain ⟨n0, path, t0, c0, ⟨pre', o', post', s', e, r1, r2, r3⟩, route, hhd, hlast⟩ :=
      ih pre.length (by rw [← hlen]; simp) hl.left hshort.left h0 hg' rfl
    refine ⟨n0, path ++ [n], t0, _, ⟨pre', o', post' ++ o :: post, s', ?_, r1, r2, r3⟩, .more (route.mono (b := o :: post)) hlast
      ⟨pre, o, post, s0, rfl, hsend, h0, hg', hle⟩ hop hsoon, ?_, by simp⟩
    · rw [e]; simp
    · rw [List.head?_append, hhd]; rfl
  · refine ⟨n', [n', n], t', 0, ⟨pre, o, post, s0, rfl, hsend, h0, ?_⟩, .one hop hsoon, rfl, rfl⟩
    intro t'' hg'
    exact hprev ⟨t'', hg'⟩

/-! ## What is accepted arrives -/

/-- Packet `p` is passed up by the ground-facing device of satellite `d`. -/
def FromGround (net : Net D G E V W P R) (s : Sys D G E W R) (d : D) (t p : Nat) : Prop :=
  ∃ k i ta f, (t, k) ∈ net.rx.delivered (s.up.sats d) ∧ s.up.heard[i]? = some (ta, d, f) ∧ net.rx.key i f.pkt = k ∧ f.pkt = p

theorem up_delivered {net : Net D G E V W P (NoneMac.Sys P)} (hrx : net.rx = Uplink.noneReceiver P) (hs : Setup net w peer hist as) {B L C M : Nat}
    (hlim : Limits net w peer B L C M) {ops : List (Op D G E W)} (hl : Launched net hist as ops) (hshort : Short ops L)
    {s : Sys D G E W (NoneMac.Sys P)} (h : exec net ops = some (.ok s)) {g : G} {d : D} {a : Nat} {x : GroundSta.Entry W}
    (hacc : (a, x) ∈ (s.up.stations g).accepted) (hd : Uplink.target hist as x.dst = some d)
    (hopen : ∀ u, a ≤ u → u ≤ a + C + (B + L) + B → w.ground.admit u g d = true) {T : Nat} (hT : Uplink.due net.up s.up T)
    (hlate : a + deadline B L C M < T) : ∃ t, FromGround net s d t x.pkt ∧ a ≤ t ∧ t ≤ a + deadline B L C M := by
  unfold deadline at *
  obtain ⟨h1, -, -⟩ := C73_parts h
  obtain ⟨-, T1, T2, T3⟩ := hT
  have hst := Uplink.C55_station h1 g
  obtain ⟨k, hk, k1, k2⟩ := (on_air_by (hlim.mac g) (hlim.station g) (hshort.up g _ _) hst (T1 g)).2 a x hacc (by omega)
  have hadm := hopen k k1 k2
  have hdel := hlim.ground _ _ _ hadm
  have hlen := hshort.up g _ _ _ ((C34_accepted_or_dropped hst).2.subset hacc)
  simp only at hlen
  obtain ⟨hasOrbit, cid, n, m, k', hb, hfit, hkk⟩ := hs.built
  have hflights := (Uplink.account hb hfit hkk hs.sky hl.up h1).flights
  have hland : Uplink.lands net.up.addr w.ground (Uplink.target hist as) g (k, x) =
      some (k + w.ground.delay k g d, d, ⟨x.pkt, x.len, net.addr g, x.proto, w.ground.power k g d x.power⟩) := by
    unfold Uplink.lands
    rw [hd]
    simp only [hadm, if_true]
    rfl
  have hmem : (k + w.ground.delay k g d, d, (⟨x.pkt, x.len, net.addr g, x.proto, w.ground.power k g d x.power⟩ : Uplink.Flight W)) ∈
      (↑s.up.heard + ↑s.up.flying : Multiset (Nat × D × Uplink.Flight W)) := by
    rw [hflights, Multiset.mem_sum]
    exact ⟨g, Finset.mem_univ _, Multiset.mem_coe.mpr (List.mem_filterMap.mpr ⟨_, hk, hland⟩)⟩
  rcases Multiset.mem_add.mp hmem with hh | hf
  · obtain ⟨i, hi⟩ := List.getElem?_of_mem (Multiset.mem_coe.mp hh)
    obtain ⟨rops, r1, r2⟩ := Uplink.C55_receiver h1 d
    have e : net.up.rx = Uplink.noneReceiver P := hrx
    rw [e, Uplink.none_run, Option.map_eq_some_iff] at r1
    obtain ⟨r, r1, e'⟩ := r1
    simp only [Outcome.ok.injEq] at e'
    subst e'
    have hfr : (⟨i, k + w.ground.delay k g d, x.len, net.toP (w.ground.power k g d x.power)⟩ : Aloha.Frame P) ∈ Aloha.frames rops := by
      rw [r2]
      refine Uplink.mem_framesAt.mpr ⟨(_, i), List.mem_zipIdx_iff_getElem?.mpr hi, rfl, ?_⟩
      rw [e]
      rfl
    have hdel' := (C27_receive r1).1.symm.subset (List.mem_map.mpr ⟨_, hfr, rfl⟩)
    simp only [Aloha.Frame.fin] at hdel'
    rcases List.mem_append.mp hdel' with h5 | h5
    · refine ⟨k + w.ground.delay k g d + x.len, ⟨i, i, _, _, ?_, hi, ?_, rfl⟩, by omega, by omega⟩
      · rw [hrx]; exact h5
      · rw [hrx]; rfl
    · exfalso
      obtain ⟨f, hf, e5⟩ := List.mem_map.mp h5
      simp only [Prod.mk.injEq] at e5
      have := T3 d f.fin (by rw [e]; exact List.mem_map.mpr ⟨f, hf, rfl⟩)
      simp only [Aloha.Frame.fin] at this
      omega
  · exfalso
    have := T2 _ (Multiset.mem_coe.mp hf)
    simp only at this
    omega

/-- An accepted packet reaches the satellite that its station tracked when it was given to `Send`, if the link is open for as long as the packet may wait: it has been
passed up there by the deadline.  `T` is any moment before which nothing is scheduled any more.  (Pass-through receivers: with Aloha and CRDSA frames may get lost in collisions.) -/
theorem C95_up {net : Net D G E V W P (NoneMac.Sys P)} (hrx : net.rx = Uplink.noneReceiver P) (hs : Setup net w peer hist as) {B L C M : Nat}
    (hlim : Limits net w peer B L C M) {ops : List (Op D G E W)} (hl : Launched net hist as ops) (hshort : Short ops L)
    {s : Sys D G E W (NoneMac.Sys P)} (h : exec net ops = some (.ok s)) {g : G} {d : D} {a : Nat} {x : GroundSta.Entry W}
    (hacc : (a, x) ∈ (s.up.stations g).accepted) (hd : Uplink.target hist as x.dst = some d)
    (hopen : ∀ u, a ≤ u → u ≤ a + C + (B + L) + B → w.ground.admit u g d = true) {T : Nat} (hT : Uplink.due net.up s.up T)
    (hlate : a + deadline B L C M < T) : ∃ t, Gets net s (.sat d) t x.pkt ∧ a ≤ t ∧ t ≤ a + deadline B L C M := by
  obtain ⟨t, h1, h2⟩ := up_delivered hrx hs hlim hl hshort h hacc hd hopen hT hlate
  exact ⟨t, Or.inl h1, h2⟩

theorem isl_delivered (hs : Setup net w peer hist as) {B L C M : Nat} (hlim : Limits net w peer B L C M) {ops : List (Op D G E W)} (hshort : Short ops L)
    {s : Sys D G E W R} (h : exec net ops = some (.ok s)) {e : E} {y : Nat × SatNet.Entry × Bool} (hacc : y ∈ (s.isl.tx e).accepted)
    (hopen : ∀ u, y.1 ≤ u → u ≤ y.1 + C + L → w.isl.admit u e (peer e) = true) {T : Nat} (hT : IslNet.due s.isl T)
    (hlate : y.1 + (C + L + M + L) < T) :
    ∃ t proto, (t, y.2.1.pkt, proto) ∈ (s.isl.rx (peer e)).delivered ∧ y.1 ≤ t ∧ t ≤ y.1 + (C + L + M + L) := by
  obtain ⟨-, -, h1⟩ := C73_parts h
  obtain ⟨-, T1, T2, T3⟩ := hT
  have hst := IslNet.C60_sender h1 e
  obtain ⟨f, hf, f1, f2, f3⟩ := (isl_on_air (hlim.isl e) (hshort.isl e) hst (T1 e)).2 y hacc (by omega)
  have hadm := hopen f.1 f2 f3
  have hdel := hlim.link _ _ hadm
  have hlen := hshort.isl e _ ((C39_accepted_or_dropped hst).2.subset (List.mem_map.mpr ⟨y, hacc, rfl⟩))
  simp only [arrival] at hlen
  obtain ⟨s', e', hac⟩ := IslNet.run_ok hs.islSky hs.wired h1
  simp only [Outcome.ok.injEq] at e'
  subst e'
  have hmem : (f.1 + w.isl.delay f.1 e (peer e), peer e, (⟨f.2.1.pkt, f.2.1.len, f.2.2⟩ : IslNet.Frame)) ∈
      (↑s.isl.heard + ↑s.isl.flying : Multiset (Nat × E × IslNet.Frame)) := by
    rw [hac.flights, Multiset.mem_sum]
    refine ⟨e, Finset.mem_univ _, Multiset.mem_coe.mpr (List.mem_filterMap.mpr ⟨_, List.mem_map.mpr ⟨f, hf, rfl⟩, ?_⟩)⟩
    unfold IslNet.lands
    simp only [hadm, if_true]
  rcases Multiset.mem_add.mp hmem with hh | hfl
  · obtain ⟨rops, r1, r2⟩ := IslNet.C60_receiver h1 (peer e)
    obtain ⟨s', e', p1, -⟩ := C40_reception r1
    simp only [Outcome.ok.injEq] at e'
    subst e'
    have hin := p1.symm.subset (a := (f.1 + w.isl.delay f.1 e (peer e) + f.2.1.len, f.2.1.pkt, f.2.2)) (by
      rw [r2]
      refine List.mem_filterMap.mpr ⟨_, Multiset.mem_coe.mp hh, ?_⟩
      unfold IslNet.heardAt
      simp only [if_true])
    rcases List.mem_append.mp hin with h5 | h5
    · rw [f1] at h5
      exact ⟨_, f.2.2, h5, by omega, by omega⟩
    · exfalso
      have := T3 _ _ h5
      rw [f1] at this
      simp only at this
      omega
  · exfalso
    have := T2 _ (Multiset.mem_coe.mp hfl)
    simp only at this
    omega

/-- The same between satellites: an accepted packet has been passed up by the device at the other end by the deadline, if the link is open. -/
theorem C95_isl (hs : Setup net w peer hist as) {B L C M : Nat} (hlim : Limits net w peer B L C M) {ops : List (Op D G E W)} (hshort : Short ops L)
    {s : Sys D G E W R} (h : exec net ops = some (.ok s)) {e : E} {y : Nat × SatNet.Entry × Bool} (hacc : y ∈ (s.isl.tx e).accepted)
    (hopen : ∀ u, y.1 ≤ u → u ≤ y.1 + C + L → w.isl.admit u e (peer e) = true) {T : Nat} (hT : IslNet.due s.isl T)
    (hlate : y.1 + (C + L + M + L) < T) :
    ∃ t, Gets net s (.sat (net.own (peer e))) t y.2.1.pkt ∧ y.1 ≤ t ∧ t ≤ y.1 + (C + L + M + L) := by
  obtain ⟨t, proto, h1, h2⟩ := isl_delivered hs hlim hshort h hacc hopen hT hlate
  exact ⟨t, Or.inr ⟨_, proto, rfl, h1⟩, h2⟩

omit [Fintype G] [Fintype D] [Fintype E] [DecidableEq D] [DecidableEq E] in
theorem mem_tracks {ops : List (Op D G E W)} {g : G} {c : Nat × SatAddress} (hc : c ∈ Downlink.tracks g (ops.filterMap toDown)) : .track g c.1 c.2 ∈ ops := by
  unfold Downlink.tracks at hc
  obtain ⟨o, ho, e⟩ := List.mem_filterMap.mp hc
  obtain ⟨o', ho', e'⟩ := List.mem_filterMap.mp ho
  cases o with
  | track g' v' b' =>
    simp only at e
    split at e
    · rename_i hgg
      subst hgg
      simp only [Option.some.injEq] at e
      subst e
      cases o' with
      | track g'' v'' b'' =>
        simp only [toDown, Option.some.injEq, Downlink.Op.track.injEq] at e'
        obtain ⟨rfl, rfl, rfl⟩ := e'
        exact ho'
      | _ => simp [toDown] at e'
    · simp at e
  | _ => simp at e

/-- A frame that arrives when its satellite is tracked, and not at the instant of a change, is expected. -/
theorem expected_of_tracked {debug : Bool} {e : Endian} {ty : UInt8} {a : SatAddress} {rops : List GroundStaRx.Op} {r : GroundStaRx.Sys}
    (hrun : GroundStaRx.exec debug e ty a rops = some (.ok r)) :
    (∀ y ∈ Downlink.arrivalsRx rops, y.1 ≤ r.clock) ∧ (∀ c ∈ Downlink.tracksRx rops, c.1 ≤ r.clock) ∧
    ∀ y ∈ Downlink.arrivalsRx rops, (∀ c ∈ Downlink.tracksRx rops, c.1 ≠ y.1) →
      y.2.2.src = (Downlink.trackedAt a (Downlink.tracksRx rops) y.1).convertTo e ty → (y.1 + y.2.1, y.2.2) ∈ expected e ty a rops := by
  induction rops using List.reverseRecOn generalizing r with
  | nil => simp [Downlink.arrivalsRx, Downlink.tracksRx]
  | append_singleton os o ih =>
    unfold GroundStaRx.exec at hrun
    obtain ⟨s1, h1, h2⟩ := runFrom_snoc.mp hrun
    obtain ⟨i1, i2, i3⟩ := ih h1
    rw [expected_append, Downlink.arrivalsRx_append, Downlink.tracksRx_append]
    cases o with
    | run =>
      have := ((Downlink.ahead_exec h1).step h2).2
      simp only [Downlink.arrivalsRx, Downlink.tracksRx, List.append_nil]
      refine ⟨fun y hy => by have := i1 y hy; omega, fun y hy => by have := i2 y hy; omega, fun y hy h3 h4 => List.mem_append_left _ (i3 y hy h3 h4)⟩
    | arrive t pkt len src proto =>
      obtain ⟨c1, c2⟩ := Downlink.step_clock h2 (Or.inl ⟨pkt, len, src, proto, rfl⟩)
      simp only [Downlink.arrivalsRx, Downlink.tracksRx, List.append_nil]
      refine ⟨?_, fun y hy => by have := i2 y hy; omega, ?_⟩
      · intro y hy
        rcases List.mem_append.mp hy with hy | hy
        · have := i1 y hy; omega
        · rw [List.mem_singleton] at hy
          subst hy
          simp [c2]
      · intro y hy h3 h4
        rcases List.mem_append.mp hy with hy | hy
        · exact List.mem_append_left _ (i3 y hy h3 h4)
        · rw [List.mem_singleton] at hy
          subst hy
          have htr : Downlink.trackedAt a (Downlink.tracksRx os) t = trackedRx a os := by
            rw [Downlink.trackedRx_eq]
            unfold Downlink.trackedAt
            rw [List.filter_eq_self.mpr]
            intro y hy
            have := i2 y hy
            simp only [decide_eq_true_eq]
            omega
          simp only [htr] at h4
          refine List.mem_append_right _ ?_
          simp only [expected, h4, if_true, List.mem_singleton]
    | setRemote t b =>
      obtain ⟨c1, c2⟩ := Downlink.step_clock h2 (Or.inr ⟨b, rfl⟩)
      simp only [Downlink.arrivalsRx, Downlink.tracksRx, List.append_nil]
      refine ⟨fun y hy => by have := i1 y hy; omega, ?_, ?_⟩
      · intro y hy
        rcases List.mem_append.mp hy with hy | hy
        · have := i2 y hy; omega
        · rw [List.mem_singleton] at hy
          subst hy
          simp [c2]
      · intro y hy h3 h4
        refine List.mem_append_left _ (i3 y hy (fun c hc => h3 c (List.mem_append_left _ hc)) ?_)
        have hlt : y.1 < t := by
          have h5 := i1 y hy
          have h6 := h3 (t, b) (by simp)
          simp only at h6
          omega
        have : Downlink.trackedAt a (Downlink.tracksRx os ++ [(t, b)]) y.1 = Downlink.trackedAt a (Downlink.tracksRx os) y.1 := by
          unfold Downlink.trackedAt
          rw [List.filter_append]
          have : ¬ t ≤ y.1 := by omega
          simp [this]
        rw [← this]
        exact h4

/-- The tracked address stays as long as it is not changed. -/
theorem trackedAt_stays {a : SatAddress} {l : List (Nat × SatAddress)} {t u : Nat} (htu : t ≤ u) (h : ∀ c ∈ l, c.1 ≤ u → c.1 ≤ t) :
    Downlink.trackedAt a l u = Downlink.trackedAt a l t := by
  unfold Downlink.trackedAt
  congr 3
  refine List.filter_congr (fun c hc => ?_)
  have := h c hc
  by_cases h1 : c.1 ≤ u
  · simp [h1, this h1]
  · have : ¬ c.1 ≤ t := by omega
    simp [h1, this]

/-- From a satellite to a station: an accepted packet has been passed up by the deadline by every station on the channel that tracks the satellite when the packet is
accepted and for as long as it may be on its way, if the link is open. -/
theorem C95_down (hs : Setup net w peer hist as) {B L C M : Nat} (hlim : Limits net w peer B L C M) {ops : List (Op D G E W)} (hshort : Short ops L)
    {s : Sys D G E W R} (h : exec net ops = some (.ok s)) {d : D} {g : G} {a : Nat} {x : Sat2Ground.Entry W} (hacc : (a, x) ∈ (s.down.sats d).accepted)
    (hon : g ∈ net.chan.ground) (hopen : ∀ u, a ≤ u → u ≤ a + C + L → w.ground.admit u g d = true)
    (htr : Downlink.trackedAt (net.remote g) (Downlink.tracks g (ops.filterMap toDown)) a = net.satAddr d)
    (hstay : ∀ u b, .track g u b ∈ ops → u < a ∨ a + (C + L + M) < u) {T : Nat} (hT : Downlink.due s.down T)
    (hlate : a + (C + L + M + L) < T) : ∃ t, Gets net s (.ground g) t x.pkt ∧ a ≤ t ∧ t ≤ a + (C + L + M + L) := by
  obtain ⟨-, h1, -⟩ := C73_parts h
  obtain ⟨-, T1, T2, T3⟩ := hT
  have hst := Downlink.C59_satellite h1 d
  obtain ⟨k, hk, k1, k2⟩ := (down_on_air (hlim.sat d) (hshort.down d _) hst (T1 d)).2 a x hacc (by omega)
  have hadm := hopen k k1 k2
  have hdel := hlim.ground _ _ _ hadm
  have hlen := hshort.down d _ _ ((C38_accepted_or_dropped hst).2.subset hacc)
  simp only at hlen
  obtain ⟨s', e', hac⟩ := Downlink.run_ok hs.downSky h1
  simp only [Outcome.ok.injEq] at e'
  subst e'
  have hmem : (k + w.ground.delay k g d, g, (⟨x.pkt, x.len, (net.satAddr d).convertTo net.endian net.ty, x.proto, w.ground.power k g d x.power⟩ : Downlink.Flight W)) ∈
      (↑s.down.heard + ↑s.down.flying : Multiset (Nat × G × Downlink.Flight W)) := by
    rw [hac.flights, Multiset.mem_sum]
    refine ⟨d, Finset.mem_univ _, Multiset.mem_coe.mpr (List.mem_flatMap.mpr ⟨_, hk, List.mem_filterMap.mpr ⟨g, hon, ?_⟩⟩)⟩
    have : w.down.admit k g d = true := hadm
    unfold Downlink.lands
    simp only [this, if_true]
    rfl
  rcases Multiset.mem_add.mp hmem with hh | hfl
  · obtain ⟨rops, r1, r2, r3⟩ := Downlink.C59_station h1 g
    have hsrc := Downlink.from_sats hac r2
    obtain ⟨s', e', p1, -⟩ := C36_tracked_only hsrc r1
    simp only [Outcome.ok.injEq] at e'
    subst e'
    have htracks : ∀ c ∈ Downlink.tracks g (ops.filterMap toDown), c.1 < a ∨ a + (C + L + M) < c.1 := fun c hc => hstay c.1 c.2 (mem_tracks hc)
    have hexp := (expected_of_tracked r1).2.2 (k + w.ground.delay k g d, x.len, ⟨x.pkt, (net.satAddr d).convertTo net.endian net.ty, x.proto⟩) (by
      rw [r2]
      refine List.mem_filterMap.mpr ⟨_, Multiset.mem_coe.mp hh, ?_⟩
      simp only [if_true]) (by
      intro c hc he
      rw [r3] at hc
      have := htracks c hc
      simp only at he
      omega) (by
      simp only
      rw [r3, trackedAt_stays (t := a) (by omega)]
      · exact congrArg (fun b => SatAddress.convertTo net.endian net.ty b) htr.symm
      · intro c hc hle
        have := htracks c hc
        omega)
    rcases List.mem_append.mp (p1.symm.subset hexp) with h5 | h5
    · exact ⟨_, ⟨_, h5, rfl⟩, by simp only; omega, by simp only; omega⟩
    · exfalso
      have := T3 _ _ h5
      simp only at this
      omega
  · exfalso
    have := T2 _ (Multiset.mem_coe.mp hfl)
    simp only at this
    omega

/-! ## The queues of the repository -/

theorem Within.mono {X : Type} {len : X → Nat} {accept : List X → X → Bool} {B L C C' : Nat} (h : Within len accept B L C) (hc : C ≤ C') : Within len accept B L C' :=
  fun q x h1 h2 h3 => Nat.le_trans (h q x h1 h2 h3) hc

omit [Fintype G] [Fintype D] [Fintype E] [DecidableEq G] [DecidableEq D] [DecidableEq E] in
/-- With queues for `K` packets in all devices, the deadline is `K * (B + L) + B + M + L`. -/
theorem C95_packets {K : UInt32} (hK : 0 < K.toNat) {b1 : G → GroundSta.Entry W → Nat} {b2 : D → Sat2Ground.Entry W → Nat} {b3 : E → SatNet.Entry → Nat}
    (h1 : ∀ g, net.accept g = Queue.dropTail .packets K (b1 g)) (h2 : ∀ d, net.satAccept d = Queue.dropTail .packets K (b2 d))
    (h3 : ∀ e, net.isl.accept e = Queue.dropTail .packets K (b3 e)) {B L M : Nat} (hm : ∀ g, Prompt (net.mac g) B)
    (hg : ∀ u g d, w.ground.admit u g d = true → w.ground.delay u g d ≤ M) (hi : ∀ u e, w.isl.admit u e (peer e) = true → w.isl.delay u e (peer e) ≤ M) :
    Limits net w peer B L ((K.toNat - 1) * (B + L)) M ∧ deadline B L ((K.toNat - 1) * (B + L)) M = K.toNat * (B + L) + B + M + L := by
  have hle : (K.toNat - 1) * (0 + L) ≤ (K.toNat - 1) * (B + L) := Nat.mul_le_mul_left _ (by omega)
  refine ⟨⟨hm, fun g => ?_, fun d => ?_, fun e => ?_, hg, hi⟩, ?_⟩
  · rw [h1]; exact within_packets _ _ _ _ _
  · rw [h2]; exact (within_packets _ _ _ _ _).mono hle
  · rw [h3]; exact (within_packets _ _ _ _ _).mono hle
  · unfold deadline
    obtain ⟨n, hn⟩ : ∃ n, K.toNat = n + 1 := ⟨K.toNat - 1, by omega⟩
    rw [hn, Nat.add_sub_cancel, Nat.add_mul n 1]
    omega

end

/-! ## CRDSA -/

/-- Frame 1 collides with frame 2, frame 2 with frame 3 and so on, until 50; then the replicas of frames 2 to 6 come, one after the other. -/
def lateOps : List (Aloha.Op Nat) :=
  [.arrive ⟨1, 0, 10, 1⟩, .arrive ⟨2, 5, 10, 1⟩, .finish, .arrive ⟨3, 12, 10, 1⟩, .finish, .arrive ⟨4, 20, 10, 1⟩, .finish, .arrive ⟨5, 28, 12, 1⟩, .finish, .arrive ⟨6, 38, 12, 1⟩,
   .finish, .finish, .arrive ⟨2, 51, 2, 1⟩, .finish, .arrive ⟨3, 53, 2, 1⟩, .finish, .arrive ⟨4, 55, 2, 1⟩, .finish, .arrive ⟨5, 57, 2, 1⟩, .finish, .arrive ⟨6, 60, 2, 1⟩, .finish]

/-- There is no such limit for CRDSA: a frame lost in a long series of collisions may be recovered a long time after its end - here the only frame of packet 1, which has
ended at 10, at 62, though the receiver keeps only two CRDSA frames of 10 ticks each. -/
theorem C95_crdsa_late : ∃ rops r, runFrom (Uplink.crdsaReceiver (P := Nat) (fun _ i => decide (0 < i)) 10).step
      (Uplink.crdsaReceiver (P := Nat) (fun _ i => decide (0 < i)) 10).init rops = some (.ok r) ∧
    (62, 1) ∈ (Uplink.crdsaReceiver (P := Nat) (fun _ i => decide (0 < i)) 10).delivered r ∧ ∀ f ∈ Aloha.frames rops, f.uid = 1 → f.start + f.dur = 10 := by
  refine ⟨lateOps, _, rfl, ?_, ?_⟩ <;> decide

theorem C95_crdsa_not_punctual : ¬ Punctual (Uplink.crdsaReceiver (P := Nat) (fun _ i => decide (0 < i)) 10) := by
  intro h
  obtain ⟨rops, r, h1, h2, h3⟩ := C95_crdsa_late
  obtain ⟨f, hf, f1, f2⟩ := h rops r h1 _ h2
  have := h3 f hf f1
  simp only at f2
  omega

/-! ## A concrete case -/

/-- The network of the examples of C73, with queues for two packets. -/
def smallNet {R : Type} (rx : Uplink.Receiver Int R) : Net (Fin 2) (Fin 2) (Fin 2) Nat Int Int R :=
  { exNet rx with
    accept := fun _ => Queue.dropTail .packets 2 (fun _ => 100)
    satAccept := fun _ => Queue.dropTail .packets 2 (fun _ => 100)
    isl := { (exNet rx).isl with accept := fun _ => Queue.dropTail .packets 2 (fun _ => 100) } }

theorem smallLimits {R : Type} (rx : Uplink.Receiver Int R) : Limits (smallNet rx) exWorld exPeer 0 10 10 5 :=
  (C95_packets (K := 2) (by decide) (b1 := fun _ _ => 100) (b2 := fun _ _ => 100) (b3 := fun _ _ => 100) (fun _ => rfl) (fun _ => rfl) (fun _ => rfl) (fun _ => none_prompt)
    (fun u g d _ => by show 3 + 2 * d.val ≤ 5; omega) (fun u e _ => Nat.le_refl _)).1

theorem smallSetup {R : Type} (rx : Uplink.Receiver Int R) : Setup (smallNet rx) exWorld exPeer exHist exAddrs where
  built := (exSetup rx).built
  sky := (exSetup rx).sky
  islSky := (exSetup rx).islSky
  wired := (exSetup rx).wired

theorem smallShort : Short exOps 10 := by
  unfold Short
  decide

theorem smallLaunched {R : Type} (rx : Uplink.Receiver Int R) : Launched (smallNet rx) exHist exAddrs exOps := exLaunched rx

/-- Packet 11 gets from station 0 to station 1 within 37 ticks; the limit is 3 links with 35 ticks each. -/
example : ∃ s, exec (smallNet (Uplink.noneReceiver Int)) exOps = some (.ok s) ∧ Gets (smallNet (Uplink.noneReceiver Int)) s (.ground 1) 37 11 ∧
    deadline 0 10 10 5 = 35 := by
  have h : ∃ s, exec (smallNet (Uplink.noneReceiver Int)) exOps = some (.ok s) ∧
      (37, ⟨11, (SatAddress.mk3 .little 1 0 1).convertTo .little 7, 7⟩) ∈ (s.down.stations 1).delivered := by
    refine ⟨_, rfl, ?_⟩; decide
  obtain ⟨s, h1, h2⟩ := h
  exact ⟨s, h1, ⟨_, h2, rfl⟩, rfl⟩

example : Honest true (smallNet (Uplink.noneReceiver Int)).rx ∧ Punctual (smallNet (Uplink.noneReceiver Int)).rx := ⟨C73_none_honest, none_punctual⟩

example : Punctual (Uplink.alohaReceiver (P := Nat) (fun _ i => decide (0 < i))) := aloha_punctual _

/-- In the end nothing is left to happen, and every packet accepted by a device has been given to the other end within the limits. -/
example : ∃ s, exec (smallNet (Uplink.noneReceiver Int)) exOps = some (.ok s) ∧ (0, ⟨11, 10, SatAddress.mk3 .little 1 0 0, 7, 30⟩) ∈ (s.up.stations 0).accepted ∧
    Uplink.target exHist exAddrs (SatAddress.mk3 .little 1 0 0) = some 0 ∧ (22, ⟨11, 10, 7, 30⟩) ∈ (s.down.sats 1).accepted ∧
    (13, ⟨11, 4, 7⟩, false) ∈ (s.isl.tx 0).accepted ∧
    Uplink.due (smallNet (Uplink.noneReceiver Int)).up s.up 60 ∧ Downlink.due s.down 60 ∧ IslNet.due s.isl 60 ∧
    Downlink.trackedAt ((smallNet (Uplink.noneReceiver Int)).remote 1) (Downlink.tracks 1 (exOps.filterMap toDown)) 22 = (smallNet (Uplink.noneReceiver Int)).satAddr 1 := by
  refine ⟨_, rfl, ?_⟩
  unfold Uplink.due Downlink.due IslNet.due
  decide

end Network
end Icarus
