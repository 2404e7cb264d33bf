import Verif.Model.InstallCalls
import Verif.Props.IcarusHelper

/-!
# Sequences of `Install` calls (C78)
-/

set_option autoImplicit false

namespace Icarus
namespace IcarusHelper
open ConstellationHelper

variable {N V : Type}

/-! ## Specification -/

/-- Nodes and channels of all devices to be installed, in order.  `k` is the number of channels so far. -/
def plan (names : Names N) : Nat → List (Call N) → List (Option N × Option Nat)
  | _, [] => []
  | k, .one n c :: cs => (n.get names.node, c.get names.channel) :: plan names k cs
  | k, .many ns c :: cs => ns.map (fun n => (some n, c.get names.channel)) ++ plan names k cs
  | k, .fresh ns :: cs => ns.map (fun n => (some n, some k)) ++ plan names (k + 1) cs

/-- Channels passed to, or created by, an `Install` with a container. -/
def announced (names : Names N) : Nat → List (Call N) → List (Option Nat)
  | _, [] => []
  | k, .one _ _ :: cs => announced names k cs
  | k, .many _ c :: cs => c.get names.channel :: announced names k cs
  | k, .fresh _ :: cs => some k :: announced names (k + 1) cs

/-! ## Single actions -/

inductive Act (N : Type) where
  | new
  | tell (c : Option Nat)
  | put (n : Option N) (c : Option Nat)

def acts (names : Names N) : Nat → List (Call N) → List (Act N)
  | _, [] => []
  | k, .one n c :: cs => .put (n.get names.node) (c.get names.channel) :: acts names k cs
  | k, .many ns c :: cs => .tell (c.get names.channel) :: (ns.map (fun n => .put (some n) (c.get names.channel)) ++ acts names k cs)
  | k, .fresh ns :: cs => .new :: .tell (some k) :: (ns.map (fun n => .put (some n) (some k)) ++ acts names (k + 1) cs)

def putOf : Act N → Option (Option N × Option Nat)
  | .put n c => some (n, c)
  | _ => none

def tellOf : Act N → Option (Option Nat)
  | .tell c => some c
  | _ => none

theorem plan_acts (names : Names N) (cs : List (Call N)) : ∀ k, plan names k cs = (acts names k cs).filterMap putOf := by
  induction cs with
  | nil => intro k; rfl
  | cons c cs ih =>
    intro k
    cases c with
    | one n c => simp only [plan, acts, List.filterMap_cons, putOf, ih]
    | many ns c => simp [plan, acts, List.filterMap_cons, putOf, ih, List.filterMap_append, List.filterMap_map, Function.comp_def]
    | fresh ns => simp [plan, acts, List.filterMap_cons, putOf, ih, List.filterMap_append, List.filterMap_map, Function.comp_def]

theorem announced_acts (names : Names N) (cs : List (Call N)) : ∀ k, announced names k cs = (acts names k cs).filterMap tellOf := by
  induction cs with
  | nil => intro k; rfl
  | cons c cs ih =>
    have h0 : ∀ (ns : List N) (c : Option Nat), (ns.map (fun n => Act.put (some n) c)).filterMap tellOf = [] := by
      intro ns c; simp [tellOf]
    intro k
    cases c with
    | one n c => simp only [announced, acts, List.filterMap_cons, tellOf, ih]
    | many ns c => simp only [announced, acts, List.filterMap_cons, tellOf, ih, List.filterMap_append, h0, List.nil_append]
    | fresh ns => simp only [announced, acts, List.filterMap_cons, tellOf, ih, List.filterMap_append, h0, List.nil_append]

variable [DecidableEq N]

def actStep (debug : Bool) (e : Endian) (w : World N V) : Act N → Outcome (World N V)
  | .new => .ok { w with next := w.next + 1 }
  | .tell c => do
    let c ← Outcome.deref c
    .ok { w with known := fun x => if x = c then true else w.known x }
  | .put n c => installOn debug e w n c

def actRun (debug : Bool) (e : Endian) : World N V → List (Act N) → Outcome (World N V)
  | w, [] => .ok w
  | w, a :: as => do
    let w' ← actStep debug e w a
    actRun debug e w' as

theorem actRun_append (debug : Bool) (e : Endian) (as bs : List (Act N)) : ∀ w : World N V,
    actRun debug e w (as ++ bs) = (actRun debug e w as >>= fun w' => actRun debug e w' bs) := by
  induction as with
  | nil => intro w; rfl
  | cons a as ih =>
    intro w
    simp only [List.cons_append, actRun]
    cases actStep debug e w a with
    | ok w' => simp only [Outcome.bind_ok, ih]
    | ub f => rfl
    | abort => rfl
    | assertFail => rfl

theorem installAll_acts (debug : Bool) (e : Endian) (c : Option Nat) (ns : List N) : ∀ w : World N V,
    installAll debug e c w ns = actRun debug e w (ns.map (fun n => .put (some n) c)) := by
  induction ns with
  | nil => intro w; rfl
  | cons n ns ih =>
    intro w
    simp only [installAll, List.map_cons, actRun, actStep]
    cases installOn debug e w (some n) c with
    | ok w' => simp only [Outcome.bind_ok, ih]
    | ub f => rfl
    | abort => rfl
    | assertFail => rfl

theorem installOn_next {debug : Bool} {e : Endian} {w w' : World N V} {n : Option N} {c : Option Nat} (h : installOn debug e w n c = .ok w') :
    w'.next = w.next := by
  unfold installOn at h
  simp only [Outcome.bind_eq_ok] at h
  obtain ⟨n', -, b, -, h⟩ := h
  split at h
  · rw [Outcome.bind_eq_ok] at h
    obtain ⟨c', -, h⟩ := h
    rw [Outcome.ok.injEq] at h; rw [← h]
  · rw [Outcome.ok.injEq] at h; rw [← h]

theorem actRun_put_next {debug : Bool} {e : Endian} {c : Option Nat} (ns : List N) : ∀ {w w' : World N V},
    actRun debug e w (ns.map (fun n => .put (some n) c)) = .ok w' → w'.next = w.next := by
  induction ns with
  | nil => intro w w' h; simp only [List.map_nil, actRun, Outcome.ok.injEq] at h; rw [h]
  | cons n ns ih =>
    intro w w' h
    simp only [List.map_cons, actRun, actStep, Outcome.bind_eq_ok] at h
    obtain ⟨w1, h1, h2⟩ := h
    rw [ih h2, installOn_next h1]

/-- Calls are sequences of actions. -/
theorem calls_acts (debug : Bool) (e : Endian) (names : Names N) (cs : List (Call N)) : ∀ w : World N V,
    calls debug e names w cs = actRun debug e w (acts names w.next cs) := by
  induction cs with
  | nil => intro w; rfl
  | cons c cs ih =>
    intro w
    cases c with
    | one n c =>
      simp only [calls, call, acts, actRun, actStep]
      cases h : installOn debug e w (n.get names.node) (c.get names.channel) with
      | ok w' => simp only [Outcome.bind_ok, ih, installOn_next h]
      | ub f => rfl
      | abort => rfl
      | assertFail => rfl
    | many ns c =>
      simp only [calls, call, acts, actRun, actStep, installMany]
      cases c.get names.channel with
      | none => rfl
      | some c =>
        simp only [Outcome.deref_some, Outcome.bind_ok, installAll_acts, actRun_append]
        cases h : actRun debug e { w with known := fun x => if x = c then true else w.known x } (ns.map (fun n => .put (some n) (some c))) with
        | ok w' => simp only [Outcome.bind_ok, ih, actRun_put_next ns h]
        | ub f => rfl
        | abort => rfl
        | assertFail => rfl
    | fresh ns =>
      simp only [calls, call, acts, actRun, actStep, installMany, Outcome.deref_some, Outcome.bind_ok, installAll_acts, actRun_append]
      cases h : actRun debug e { w with next := w.next + 1, known := fun x => if x = w.next then true else w.known x }
          (ns.map (fun n => .put (some n) (some w.next))) with
      | ok w' => simp only [Outcome.bind_ok, ih, actRun_put_next ns h]
      | ub f => rfl
      | abort => rfl
      | assertFail => rfl

/-- What `InstallPriv` adds to the devices. -/
theorem installPriv_devices {debug : Bool} {e : Endian} {st st' : St N V} {node : N} (h : installPriv debug e st node = .ok st') :
    (∃ d a, st.mobility node = none ∧ st'.devices = st.devices ++ [.sat d a]) ∨ (∃ d m p, st.mobility node = some p ∧ st'.devices = st.devices ++ [.ground d m]) := by
  unfold installPriv at h
  simp only at h
  split at h
  · rename_i hm
    split at h
    · rw [Outcome.ok.injEq] at h
      subst h
      exact .inl ⟨_, _, hm, rfl⟩
    all_goals simp at h
  · rename_i p hm
    split at h
    · simp at h
    · rw [Outcome.ok.injEq] at h
      subst h
      exact .inr ⟨_, _, p, hm, rfl⟩

/-- One installation. -/
theorem installOn_cases {debug : Bool} {e : Endian} {w w' : World N V} {n : Option N} {c : Option Nat} :
    installOn debug e w n c = .ok w' ↔ ∃ x b, n = some x ∧ installPriv debug e w.base x = .ok b ∧
      ((∃ d a, b.devices = w.base.devices ++ [.sat d a] ∧ w' = { w with base := b, attached := w.attached ++ [c] }) ∨
       (∃ d m k, b.devices = w.base.devices ++ [.ground d m] ∧ c = some k ∧
         w' = { w with base := b, attached := w.attached ++ [c], ground := fun x => if x = k then w.ground x ++ [d] else w.ground x })) := by
  unfold installOn
  cases n with
  | none => simp
  | some x =>
    simp only [Outcome.deref_some, Outcome.bind_ok, Option.some.injEq, Outcome.bind_eq_ok]
    constructor
    · rintro ⟨b, hb, h⟩
      refine ⟨x, b, rfl, hb, ?_⟩
      rcases installPriv_devices hb with ⟨d, a, -, hd⟩ | ⟨d, m, -, -, hd⟩
      · rw [hd, List.getLast?_concat] at h
        simp only [Outcome.ok.injEq] at h
        exact .inl ⟨d, a, hd, h.symm⟩
      · rw [hd, List.getLast?_concat] at h
        simp only at h
        cases c with
        | none => simp at h
        | some k =>
          simp only [Outcome.deref_some, Outcome.bind_ok, Outcome.ok.injEq] at h
          exact .inr ⟨d, m, k, hd, rfl, h.symm⟩
    · rintro ⟨y, b, rfl, hb, h⟩
      refine ⟨b, hb, ?_⟩
      rcases h with ⟨d, a, hd, rfl⟩ | ⟨d, m, k, hd, rfl, rfl⟩
      · rw [hd, List.getLast?_concat]
      · rw [hd, List.getLast?_concat]; rfl

/-! ## C78 -/

/-- Which `Install` is used makes no difference to nodes, devices, addresses and constellation: they are as after one `Install` with all the nodes, so
that C54 applies.  Every device has the channel of its call. -/
theorem C78_base {debug : Bool} {e : Endian} {names : Names N} {w w' : World N V} {cs : List (Call N)} (h : calls debug e names w cs = .ok w') :
    ∃ nodes, (plan names w.next cs).map Prod.fst = nodes.map some ∧ install debug e w.base nodes = .ok w'.base ∧
      w'.attached = w.attached ++ (plan names w.next cs).map Prod.snd := by
  rw [calls_acts] at h
  rw [plan_acts]
  generalize acts names w.next cs = as at h
  induction as generalizing w with
  | nil =>
    simp only [actRun, Outcome.ok.injEq] at h
    subst h
    exact ⟨[], rfl, rfl, by simp⟩
  | cons a as ih =>
    simp only [actRun, Outcome.bind_eq_ok] at h
    obtain ⟨w1, h1, h2⟩ := h
    obtain ⟨nodes, i1, i2, i3⟩ := ih h2
    cases a with
    | new =>
      simp only [actStep, Outcome.ok.injEq] at h1
      subst h1
      exact ⟨nodes, by simpa [List.filterMap_cons, putOf] using i1, i2, by simpa [List.filterMap_cons, putOf] using i3⟩
    | tell c =>
      simp only [actStep, Outcome.bind_eq_ok, Outcome.ok.injEq] at h1
      obtain ⟨c', -, rfl⟩ := h1
      exact ⟨nodes, by simpa [List.filterMap_cons, putOf] using i1, i2, by simpa [List.filterMap_cons, putOf] using i3⟩
    | put n c =>
      obtain ⟨x, b, rfl, hb, hw⟩ := installOn_cases.mp h1
      have h3 : w1.base = b ∧ w1.attached = w.attached ++ [c] := by
        rcases hw with ⟨_, _, _, rfl⟩ | ⟨_, _, _, _, _, rfl⟩ <;> exact ⟨rfl, rfl⟩
      refine ⟨x :: nodes, by simp [putOf, i1], ?_, by rw [i3, h3.2]; simp [putOf]⟩
      rw [install, hb, Outcome.bind_ok, ← h3.1, i2]

/-- The ground devices of a channel are the installed ground devices with this channel, in order. -/
theorem C78_ground {debug : Bool} {e : Endian} {names : Names N} {h0 : ConstellationHelper (Dev N)} {pos : N → Option V} {macs channels : Nat}
    {cs : List (Call N)} {w : World N V} (h : calls debug e names (World.init h0 pos macs channels) cs = .ok w) (c : Nat) :
    w.attached.length = w.base.devices.length ∧
    w.ground c = (w.base.devices.zip w.attached).filterMap (fun x => match x with | (.ground d _, k) => if k = some c then some d else none | _ => none) := by
  have key : ∀ (as : List (Act N)) (w0 : World N V), actRun debug e w0 as = .ok w →
      (w0.attached.length = w0.base.devices.length ∧
        w0.ground c = (w0.base.devices.zip w0.attached).filterMap (fun x => match x with | (.ground d _, k) => if k = some c then some d else none | _ => none)) →
      w.attached.length = w.base.devices.length ∧
        w.ground c = (w.base.devices.zip w.attached).filterMap (fun x => match x with | (.ground d _, k) => if k = some c then some d else none | _ => none) := by
    intro as
    induction as with
    | nil =>
      intro w0 h hi
      simp only [actRun, Outcome.ok.injEq] at h
      rwa [h] at hi
    | cons a as ih =>
      intro w0 h hi
      simp only [actRun, Outcome.bind_eq_ok] at h
      obtain ⟨w1, h1, h2⟩ := h
      refine ih w1 h2 ?_
      cases a with
      | new =>
        simp only [actStep, Outcome.ok.injEq] at h1
        subst h1; exact hi
      | tell k =>
        simp only [actStep, Outcome.bind_eq_ok, Outcome.ok.injEq] at h1
        obtain ⟨k', -, rfl⟩ := h1
        exact hi
      | put n k =>
        obtain ⟨x, b, rfl, hb, hw⟩ := installOn_cases.mp h1
        rcases hw with ⟨d, a, hd, rfl⟩ | ⟨d, m, k', hd, rfl, rfl⟩
        · refine ⟨by simp [hd, hi.1], ?_⟩
          simp only [hd]
          rw [List.zip_append hi.1.symm, List.filterMap_append, hi.2]
          simp
        · refine ⟨by simp [hd, hi.1], ?_⟩
          simp only [hd]
          rw [List.zip_append hi.1.symm, List.filterMap_append, hi.2]
          by_cases hk : c = k'
          · subst hk; simp
          · have hk' : ¬ k' = c := fun h => hk h.symm
            simp [hk, hk']
  rw [calls_acts] at h
  exact key _ _ h ⟨rfl, rfl⟩

/-- A channel knows the constellation exactly if it was passed to, or created by, an `Install` with a container. -/
theorem C78_known {debug : Bool} {e : Endian} {names : Names N} {w w' : World N V} {cs : List (Call N)} (h : calls debug e names w cs = .ok w') (c : Nat) :
    w'.known c = true ↔ w.known c = true ∨ some c ∈ announced names w.next cs := by
  rw [calls_acts] at h
  rw [announced_acts]
  generalize acts names w.next cs = as at h
  induction as generalizing w with
  | nil =>
    simp only [actRun, Outcome.ok.injEq] at h
    subst h
    simp
  | cons a as ih =>
    simp only [actRun, Outcome.bind_eq_ok] at h
    obtain ⟨w1, h1, h2⟩ := h
    rw [ih h2]
    cases a with
    | new =>
      simp only [actStep, Outcome.ok.injEq] at h1
      subst h1
      simp [List.filterMap_cons, tellOf]
    | tell k =>
      simp only [actStep, Outcome.bind_eq_ok, Outcome.ok.injEq] at h1
      obtain ⟨k', hk, rfl⟩ := h1
      cases k with
      | none => simp at hk
      | some k =>
        simp only [Outcome.deref_some, Outcome.ok.injEq] at hk
        subst hk
        simp only [List.filterMap_cons, tellOf, List.mem_cons, Option.some.injEq]
        by_cases hc : c = k <;> simp [hc]
    | put n k =>
      obtain ⟨x, b, rfl, hb, hw⟩ := installOn_cases.mp h1
      have h3 : w1.known = w.known := by rcases hw with ⟨_, _, _, rfl⟩ | ⟨_, _, _, _, _, rfl⟩ <;> rfl
      simp [List.filterMap_cons, tellOf, h3]

/-- On a channel that was only used for single nodes everything sent to a satellite is dropped, and counting the devices dereferences a null pointer. -/
theorem C78_single_only {debug : Bool} {e : Endian} {names : Names N} {h0 : ConstellationHelper (Dev N)} {pos : N → Option V} {macs channels : Nat}
    {cs : List (Call N)} {w : World N V} (h : calls debug e names (World.init h0 pos macs channels) cs = .ok w) {c : Nat}
    (hc : some c ∉ announced names channels cs) {W F X : Type} (air : GroundSatChannel.Air (Dev N) (Dev N) X W) (frame : F) (txTime : Nat) (src : Dev N)
    (srcAddr : SatAddress.Address) (dst : SatAddress) (proto : UInt16) (power : W) :
    GroundSatChannel.transmit2Sat debug e (w.channel c) air frame txTime src srcAddr dst proto power = .ok ([.drop frame], txTime) ∧
    GroundSatChannel.getNDevices debug (w.channel c) = .ub .nullDeref := by
  have hk : w.known c = false := by
    have := C78_known h c
    simp only [World.init] at this
    cases hb : w.known c with
    | false => rfl
    | true => rw [hb] at this; simp at this; exact absurd this hc
  have hch : w.channel c = ⟨none, w.ground c⟩ := by unfold World.channel; rw [hk]; rfl
  rw [hch]
  exact ⟨rfl, rfl⟩

/-- On a channel used for a container, at any time, every satellite ever installed is reached, also those installed on another channel. -/
theorem C78_reached {debug : Bool} {e : Endian} {names : Names N} {cid n s ph : Nat} {alt inc : ℚ} {pos : N → Option V} {macs channels : Nat}
    {cs : List (Call N)} {w : World N V} (h : calls debug e names (World.init (create cid alt inc n s ph) pos macs channels) cs = .ok w) {nodes : List N}
    (hn : (plan names channels cs).map Prod.fst = nodes.map some) (hnd : nodes.Nodup) (hcap : nodes.countP (fun x => (pos x).isNone) ≤ n * s)
    (hfit : Fits16 cid n s) {c : Nat} (hc : some c ∈ announced names channels cs) {k : Nat} {node : N} (hk : nodes[k]? = some node)
    (hsat : pos node = none) :
    ∃ d a, w.base.devices[k]? = some (.sat d a) ∧ d.node = node ∧
      ∀ {W F X : Type} (air : GroundSatChannel.Air (Dev N) (Dev N) X W) (delay : X → X → Nat) (loss : W → X → X → W) (pg ps : X) (frame : F)
        (txTime : Nat) (src : Dev N) (srcAddr : SatAddress.Address) (proto : UInt16) (power : W),
        air.delay = some delay → air.loss = some loss → air.gndPos src = some pg → air.satPos d = some ps → air.success = none →
        GroundSatChannel.transmit2Sat debug e (w.channel c) air frame txTime src srcAddr a proto power =
          .ok ([.toSat d (delay pg ps) frame srcAddr proto (loss power pg ps)], txTime) := by
  obtain ⟨nodes', b1, b2, -⟩ := C78_base h
  have hnn : nodes' = nodes := by
    have : nodes'.map some = nodes.map some := by rw [← b1, ← hn]; rfl
    exact List.map_injective_iff.mpr (Option.some_injective _) this
  subst hnn
  obtain ⟨st, i1, -, i3, -, -⟩ := C54_install debug e cid n s ph alt inc pos macs nodes' hnd hcap hfit
  have hst : st = w.base := by
    have : install debug e (St.init (create cid alt inc n s ph) pos macs) nodes' = .ok w.base := b2
    rw [i1, Outcome.ok.injEq] at this
    exact this
  subst hst
  obtain ⟨d, a, d1, d2, -, -, -, d6, -⟩ := i3 k node hk hsat
  refine ⟨d, a, d1, d2, ?_⟩
  intro W F X air delay loss pg ps frame txTime src srcAddr proto power hd hl hg hs hsu
  have hknown : w.known c = true := (C78_known h c).mpr (.inr hc)
  have hch : w.channel c = ⟨some w.base.helper.constellation, w.ground c⟩ := by unfold World.channel; rw [hknown]; rfl
  rw [hch]
  simp [GroundSatChannel.transmit2Sat, d6, hd, hl, hg, hs, GroundSatChannel.admitted, hsu]

/-- When a sequence of calls succeeds: every named node exists, every container has a channel, and every node with a position has one. -/
theorem C78_succeeds_iff {debug : Bool} {e : Endian} {names : Names N} {cid n s ph : Nat} {alt inc : ℚ} {pos : N → Option V} {macs channels : Nat}
    {cs : List (Call N)} (hnd : ((plan names channels cs).filterMap Prod.fst).Nodup)
    (hcap : ((plan names channels cs).filterMap Prod.fst).countP (fun x => (pos x).isNone) ≤ n * s) :
    (∃ w, calls debug e names (World.init (create cid alt inc n s ph) pos macs channels) cs = .ok w) ↔
      none ∉ announced names channels cs ∧
      ∀ x ∈ plan names channels cs, ∃ node, x.1 = some node ∧ (pos node ≠ none → x.2 ≠ none) := by
  rw [plan_acts] at hnd hcap ⊢
  rw [announced_acts]
  have hrun : ∀ w0 : World N V, w0.next = channels → calls debug e names w0 cs = actRun debug e w0 (acts names channels cs) := by
    intro w0 h; rw [calls_acts, h]
  rw [hrun _ rfl]
  generalize acts names channels cs = as at hnd hcap ⊢
  -- a successful run leaves the invariant of installation
  have key : ∀ as : List (Act N), (((as.filterMap putOf).filterMap Prod.fst).Nodup →
      ((as.filterMap putOf).filterMap Prod.fst).countP (fun x => (pos x).isNone) ≤ n * s →
      ((∃ w, actRun debug e (World.init (create cid alt inc n s ph) pos macs channels) as = .ok w) ↔
        none ∉ as.filterMap tellOf ∧ ∀ x ∈ as.filterMap putOf, ∃ node, x.1 = some node ∧ (pos node ≠ none → x.2 ≠ none))) ∧
      (∀ w, actRun debug e (World.init (create cid alt inc n s ph) pos macs channels) as = .ok w →
        ∃ nodes, (as.filterMap putOf).map Prod.fst = nodes.map some ∧
          install debug e (St.init (create cid alt inc n s ph) pos macs) nodes = .ok w.base) := by
    intro as
    induction as using List.reverseRecOn with
    | nil =>
      refine ⟨fun _ _ => ⟨fun _ => by simp, fun _ => ⟨_, rfl⟩⟩, fun w hw => ?_⟩
      simp only [actRun, Outcome.ok.injEq] at hw
      subst hw
      exact ⟨[], rfl, rfl⟩
    | append_singleton os a ih =>
      obtain ⟨ih1, ih2⟩ := ih
      have hsplit : ∀ w, actRun debug e (World.init (create cid alt inc n s ph) pos macs channels) (os ++ [a]) = .ok w ↔
          ∃ w0, actRun debug e (World.init (create cid alt inc n s ph) pos macs channels) os = .ok w0 ∧ actStep debug e w0 a = .ok w := by
        intro w
        rw [actRun_append, Outcome.bind_eq_ok]
        refine exists_congr fun w0 => and_congr_right fun _ => ?_
        simp only [actRun]
        cases actStep debug e w0 a <;> simp
      cases a with
      | new =>
        simp only [List.filterMap_append, List.filterMap_cons, putOf, tellOf, List.filterMap_nil, List.append_nil] at hnd hcap ⊢
        constructor
        · intro hnd hcap
          rw [← ih1 hnd hcap]
          constructor
          · rintro ⟨w, hw⟩
            obtain ⟨w0, h0, -⟩ := (hsplit w).mp hw
            exact ⟨w0, h0⟩
          · rintro ⟨w0, h0⟩
            exact ⟨_, (hsplit _).mpr ⟨w0, h0, rfl⟩⟩
        · intro w hw
          obtain ⟨w0, h0, h1⟩ := (hsplit w).mp hw
          simp only [actStep, Outcome.ok.injEq] at h1
          subst h1
          exact ih2 w0 h0
      | tell c =>
        simp only [List.filterMap_append, List.filterMap_cons, putOf, tellOf, List.filterMap_nil, List.append_nil] at hnd hcap ⊢
        constructor
        · intro hnd hcap
          cases c with
          | none =>
            constructor
            · rintro ⟨w, hw⟩
              obtain ⟨w0, h0, h1⟩ := (hsplit w).mp hw
              simp [actStep] at h1
            · rintro ⟨h, -⟩; simp at h
          | some c =>
            have := ih1 hnd hcap
            simp only [List.mem_append, List.mem_singleton, reduceCtorEq, or_false]
            rw [← this]
            constructor
            · rintro ⟨w, hw⟩
              obtain ⟨w0, h0, -⟩ := (hsplit w).mp hw
              exact ⟨w0, h0⟩
            · rintro ⟨w0, h0⟩
              exact ⟨_, (hsplit _).mpr ⟨w0, h0, rfl⟩⟩
        · intro w hw
          obtain ⟨w0, h0, h1⟩ := (hsplit w).mp hw
          simp only [actStep, Outcome.bind_eq_ok, Outcome.ok.injEq] at h1
          obtain ⟨c', -, rfl⟩ := h1
          exact ih2 w0 h0
      | put x c =>
        simp only [List.filterMap_append, List.filterMap_cons, putOf, tellOf, List.filterMap_nil, List.append_nil] at hnd hcap ⊢
        constructor
        · intro hnd hcap
          have hnd0 := (List.nodup_append.mp hnd).1
          have hcap0 : ((os.filterMap putOf).filterMap Prod.fst).countP (fun x => (pos x).isNone) ≤ n * s := by
            rw [List.countP_append] at hcap; omega
          have h0 := ih1 hnd0 hcap0
          constructor
          · rintro ⟨w, hw⟩
            obtain ⟨w0, h1, h2⟩ := (hsplit w).mp hw
            obtain ⟨g1, g2⟩ := h0.mp ⟨w0, h1⟩
            refine ⟨g1, ?_⟩
            intro y hy
            rcases List.mem_append.mp hy with hy | hy
            · exact g2 y hy
            · rw [List.mem_singleton] at hy
              subst hy
              obtain ⟨node, b, rfl, hb, hw⟩ := installOn_cases.mp h2
              refine ⟨node, rfl, fun hp => ?_⟩
              rcases hw with ⟨d, a, hd, -⟩ | ⟨_, _, k, _, rfl, -⟩
              · exfalso
                obtain ⟨nodes, e1, e2⟩ := ih2 w0 h1
                have hnodes : nodes = (os.filterMap putOf).filterMap Prod.fst := by
                  rw [show (os.filterMap putOf).filterMap Prod.fst = ((os.filterMap putOf).map Prod.fst).filterMap id by
                    rw [List.filterMap_map]; rfl, e1, List.filterMap_map]
                  simp
                rw [← hnodes] at hnd0 hcap0
                obtain ⟨st, s1, s2, -⟩ := install_ok debug e cid n s ph alt inc pos macs nodes hnd0 hcap0
                rw [e2, Outcome.ok.injEq] at s1
                subst s1
                have hmob := s2.mobility node (.inl hp)
                rcases installPriv_devices hb with ⟨_, _, hm, -⟩ | ⟨_, _, _, -, hd'⟩
                · rw [hmob] at hm
                  cases hpp : pos node with
                  | none => exact hp hpp
                  | some v => rw [hpp] at hm; simp at hm
                · rw [hd'] at hd
                  have := List.append_cancel_left hd
                  simp at this
              · simp
          · rintro ⟨g1, g2⟩
            obtain ⟨w0, h1⟩ := h0.mpr ⟨g1, fun y hy => g2 y (List.mem_append_left _ hy)⟩
            obtain ⟨node, rfl, hc⟩ := g2 (x, c) (by simp)
            obtain ⟨nodes, e1, e2⟩ := ih2 w0 h1
            have hnodes : nodes = (os.filterMap putOf).filterMap Prod.fst := by
              rw [show (os.filterMap putOf).filterMap Prod.fst = ((os.filterMap putOf).map Prod.fst).filterMap id by
                rw [List.filterMap_map]; rfl, e1, List.filterMap_map]
              simp
            dsimp only at hnd hcap
            rw [← hnodes] at hnd hcap
            obtain ⟨st, s1, s2, -⟩ := install_ok debug e cid n s ph alt inc pos macs (nodes ++ [node]) hnd hcap
            rw [install_snoc, e2, Outcome.bind_ok] at s1
            rcases installPriv_devices s1 with ⟨d, a, -, hd⟩ | ⟨d, m, p, hm, hd⟩
            · exact ⟨_, (hsplit _).mpr ⟨w0, h1, installOn_cases.mpr ⟨node, st, rfl, s1, .inl ⟨d, a, hd, rfl⟩⟩⟩⟩
            · have hp : pos node ≠ none := by
                have hl : st.devices[w0.base.devices.length]? = some (.ground d m) := by rw [hd]; simp
                have h3 := (s2.grounds _ d m hl).1
                have h4 := s2.nodes
                rw [hd, List.map_append] at h4
                have h5 := List.append_inj_right' h4 (by simp)
                simp only [List.map_cons, List.map_nil, Installed.dev, List.cons.injEq, and_true] at h5
                rwa [h5] at h3
              obtain ⟨k, rfl⟩ := Option.ne_none_iff_exists'.mp (hc hp)
              exact ⟨_, (hsplit _).mpr ⟨w0, h1, installOn_cases.mpr ⟨node, st, rfl, s1, .inr ⟨d, m, k, hd, rfl, rfl⟩⟩⟩⟩
        · intro w hw
          obtain ⟨w0, h0, h1⟩ := (hsplit w).mp hw
          obtain ⟨node, b, rfl, hb, hw⟩ := installOn_cases.mp h1
          obtain ⟨nodes, e1, e2⟩ := ih2 w0 h0
          have h3 : w.base = b := by rcases hw with ⟨_, _, _, rfl⟩ | ⟨_, _, _, _, _, rfl⟩ <;> rfl
          refine ⟨nodes ++ [node], by simp [e1], ?_⟩
          rw [install_snoc, e2, Outcome.bind_ok, h3]
          exact hb
  exact (key as).1 hnd hcap

/-- Installing the nodes of a container one by one gives the same devices and the same ground devices of the channel; only the channel does not learn the
constellation. -/
theorem C78_one_by_one {debug : Bool} {e : Endian} {names : Names N} {w w1 : World N V} {nodes : List N} {c : Nat}
    (h : call debug e names w (.many nodes (.ptr (some c))) = .ok w1) :
    ∃ w2, calls debug e names w (nodes.map (fun x => .one (.ptr (some x)) (.ptr (some c)))) = .ok w2 ∧
      w2.base = w1.base ∧ w2.ground = w1.ground ∧ w2.attached = w1.attached ∧ w2.known = w.known ∧ w1.known c = true := by
  simp only [call, Ref.get, installMany, Outcome.deref_some, Outcome.bind_ok] at h
  have key : ∀ (ns : List N) (a b a' : World N V), a.base = b.base → a.ground = b.ground → a.attached = b.attached →
      installAll debug e (some c) a ns = .ok a' →
      ∃ b', calls debug e names b (ns.map (fun x => .one (.ptr (some x)) (.ptr (some c)))) = .ok b' ∧
        b'.base = a'.base ∧ b'.ground = a'.ground ∧ b'.attached = a'.attached ∧ b'.known = b.known ∧ a'.known = a.known := by
    intro ns
    induction ns with
    | nil =>
      intro a b a' h1 h2 h3 h
      simp only [installAll, Outcome.ok.injEq] at h
      subst h
      exact ⟨b, rfl, h1.symm, h2.symm, h3.symm, rfl, rfl⟩
    | cons x xs ih =>
      intro a b a' h1 h2 h3 h
      simp only [installAll, Outcome.bind_eq_ok] at h
      obtain ⟨a1, ha1, ha2⟩ := h
      obtain ⟨y, st, hy, hst, hw⟩ := installOn_cases.mp ha1
      rw [Option.some.injEq] at hy
      subst hy
      rw [h1] at hst hw
      have hb : ∃ b1, installOn debug e b (some x) (some c) = .ok b1 ∧ a1.base = b1.base ∧ a1.ground = b1.ground ∧ a1.attached = b1.attached ∧
          b1.known = b.known ∧ a1.known = a.known := by
        rcases hw with ⟨d, m, hd, rfl⟩ | ⟨d, m, k, hd, hk, rfl⟩
        · exact ⟨_, installOn_cases.mpr ⟨x, st, rfl, hst, .inl ⟨d, m, hd, rfl⟩⟩, rfl, h2, by simp [h3], rfl, rfl⟩
        · exact ⟨_, installOn_cases.mpr ⟨x, st, rfl, hst, .inr ⟨d, m, k, hd, hk, rfl⟩⟩, rfl, by simp [h2], by simp [h3], rfl, rfl⟩
      obtain ⟨b1, hb1, e1, e2, e3, e4, e5⟩ := hb
      obtain ⟨b', hb', f1, f2, f3, f4, f5⟩ := ih a1 b1 a' e1 e2 e3 ha2
      refine ⟨b', ?_, f1, f2, f3, by rw [f4, e4], by rw [f5, e5]⟩
      simp only [List.map_cons, calls, call, Ref.get, hb1, Outcome.bind_ok]
      exact hb'
  obtain ⟨b', h1, h2, h3, h4, h5, h6⟩ := key nodes { w with known := fun x => if x = c then true else w.known x } w w1 rfl rfl rfl h
  exact ⟨b', h1, h2, h3, h4, h5, by rw [h6]; simp⟩

/-! ### Non-vacuity -/

/-- A satellite and a ground station (node 1) on a new channel; a second satellite alone on the user's channel; a node by name. -/
def exampleNames : Names Nat := ⟨fun s => if s = "extra" then some 3 else none, fun s => if s = "user" then some 0 else none⟩

def exampleCalls : List (Call Nat) := [.fresh [0, 1], .one (.ptr (some 2)) (.name "user"), .one (.name "extra") (.name "unknown")]

example : ∃ w, calls true .little exampleNames (World.init (create 1 0 0 1 3 0) examplePos 0 1) exampleCalls = .ok w := by
  refine (C78_succeeds_iff (by decide) (by decide)).mpr ⟨by decide, ?_⟩
  decide

example : plan exampleNames 1 exampleCalls = [(some 0, some 1), (some 1, some 1), (some 2, some 0), (some 3, none)] ∧
    announced exampleNames 1 exampleCalls = [some 1] := by decide

example : (plan exampleNames 1 exampleCalls).map Prod.fst = ([0, 1, 2, 3] : List Nat).map some ∧ ([0, 1, 2, 3] : List Nat).Nodup ∧
    ([0, 1, 2, 3] : List Nat).countP (fun x => (examplePos x).isNone) ≤ 1 * 3 ∧ some 1 ∈ announced exampleNames 1 exampleCalls ∧
    some 0 ∉ announced exampleNames 1 exampleCalls := by decide

example : Fits16 1 1 3 := by unfold Fits16; omega

example : ∃ w : World Nat Nat, call true .little exampleNames (World.init (create 1 0 0 1 3 0) examplePos 0 1) (.many [0, 1] (.ptr (some 0))) = .ok w :=
  ⟨_, rfl⟩

/-- A node with a position and a null channel. -/
example : ¬ ∃ w, calls true .little exampleNames (World.init (create 1 0 0 1 3 0) examplePos 0 1) [.one (.ptr (some 1)) (.name "unknown")] = .ok w := by
  rw [C78_succeeds_iff (by decide) (by decide)]
  decide

end IcarusHelper
end Icarus
