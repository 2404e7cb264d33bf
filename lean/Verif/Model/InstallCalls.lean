import Verif.Model.IcarusHelper

/-!
# Model of all `Install` functions of `helper/icarus-helper.cc`, called one after the other

Channels are numbered in the order of their creation.  One constellation helper is used in all calls.
-/

set_option autoImplicit false

namespace Icarus
namespace IcarusHelper

variable {N V : Type}

/-- A node or channel is passed as a (possibly null) pointer or as a name. -/
inductive Ref (A : Type) where
  | ptr (p : Option A)
  | name (s : String)

/-- `Names::Find`: null for an unknown name. -/
def Ref.get {A : Type} (names : String → Option A) : Ref A → Option A
  | .ptr p => p
  | .name s => names s

/-- The object name service. -/
structure Names (N : Type) where
  node : String → Option N
  channel : String → Option Nat

/-- The forms of `Install`: one node (helper/icarus-helper.cc:180-217), a container and a given channel (239-265), a container and a new
channel (219-237). -/
inductive Call (N : Type) where
  | one (node : Ref N) (channel : Ref Nat)
  | many (nodes : List N) (channel : Ref Nat)
  | fresh (nodes : List N)

/-- `base`: what the calls share; its `channelGround` lists the ground devices of all channels.  `known c`: channel `c` points to the constellation of
the helper; `ground c`: its ground devices; `next`: number of channels; `attached`: the channel of every device, in the order of installation
(`m_channel`, null if none). -/
structure World (N V : Type) where
  base : St N V
  known : Nat → Bool
  ground : Nat → List (Dev N)
  next : Nat
  attached : List (Option Nat)

/-- Before any call: `channels` channels created by the user, without constellation and devices. -/
def World.init (h : ConstellationHelper (Dev N)) (pos : N → Option V) (macs channels : Nat) : World N V :=
  ⟨St.init h pos macs, fun _ => false, fun _ => [], channels, []⟩

/-- The channel as the devices use it. -/
def World.channel (w : World N V) (c : Nat) : GroundSatChannel.Chan (Dev N) (Dev N) :=
  ⟨if w.known c then some w.base.helper.constellation else none, w.ground c⟩

/-- `InstallPriv` (helper/icarus-helper.cc:267-284).  A null node is dereferenced (line 291).  `GroundStaNetDevice::Attach` dereferences the channel
(model/ground-sta-net-device.cc:211), `Sat2GroundNetDevice::Attach` (model/sat2ground-net-device.cc:182-191) only stores it. -/
def installOn [DecidableEq N] (debug : Bool) (e : Endian) (w : World N V) (node : Option N) (channel : Option Nat) : Outcome (World N V) := do
  let node ← Outcome.deref node
  let base ← installPriv debug e w.base node
  let attached := w.attached ++ [channel]
  match base.devices.getLast? with
  | some (.ground d _) =>
    let c ← Outcome.deref channel
    .ok { w with base, attached, ground := fun x => if x = c then w.ground x ++ [d] else w.ground x }
  | _ => .ok { w with base, attached }

/-- The loop of `Install` over a container (helper/icarus-helper.cc:249-252). -/
def installAll [DecidableEq N] (debug : Bool) (e : Endian) (channel : Option Nat) : World N V → List N → Outcome (World N V)
  | w, [] => .ok w
  | w, node :: rest => do
    let w' ← installOn debug e w (some node) channel
    installAll debug e channel w' rest

/-- `Install` of a container on a channel (helper/icarus-helper.cc:239-255). -/
def installMany [DecidableEq N] (debug : Bool) (e : Endian) (w : World N V) (nodes : List N) (channel : Option Nat) : Outcome (World N V) := do
  let c ← Outcome.deref channel
  installAll debug e (some c) { w with known := fun x => if x = c then true else w.known x } nodes

/-- One call of `Install`. -/
def call [DecidableEq N] (debug : Bool) (e : Endian) (names : Names N) (w : World N V) : Call N → Outcome (World N V)
  | .one node channel => installOn debug e w (node.get names.node) (channel.get names.channel)
  | .many nodes channel => installMany debug e w nodes (channel.get names.channel)
  | .fresh nodes => installMany debug e { w with next := w.next + 1 } nodes (some w.next)

/-- Calls one after the other. -/
def calls [DecidableEq N] (debug : Bool) (e : Endian) (names : Names N) : World N V → List (Call N) → Outcome (World N V)
  | w, [] => .ok w
  | w, c :: cs => do
    let w' ← call debug e names w c
    calls debug e names w' cs

end IcarusHelper
end Icarus
