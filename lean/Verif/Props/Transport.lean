import Verif.Model.Transport
import Verif.Lemmas.Machine
import Verif.Props.SatAddress
import Mathlib.Data.List.Nodup

/-!
# Properties of the transports (C61, C62)

C61: what arrives at the transports of a node and what they send, and what the references left behind by a destroyed transport do.
C62: the queue capacity told to NFD.
-/

set_option autoImplicit false

namespace Icarus
namespace Transport

/-! ## Specification -/

section Spec
variable {D P : Type}

/-- The transports created, in order. -/
def created (ops : List (Op D P)) : List (Kind × D) :=
  ops.filterMap (fun o => match o with | .create k d => some (k, d) | _ => none)

/-- The packets in NDN frames (protocol number 0x7777) that device `d` passes up. -/
def framesOf [DecidableEq D] (d : D) (ops : List (Op D P)) : List P :=
  ops.filterMap (fun o => match o with | .frame d' proto p => if d' = d ∧ proto = 0x7777 then some p else none | _ => none)

/-- The packets that NFD sends on transport `i`, up to the first `close`. -/
def sendsOf (i : Nat) : List (Op D P) → List P
  | [] => []
  | .send j p :: ops => if j = i then p :: sendsOf i ops else sendsOf i ops
  | .close j :: ops => if j = i then [] else sendsOf i ops
  | _ :: ops => sendsOf i ops

/-- `ops` creates transport `i` for device `d`; `post` is what happens afterwards. -/
def Creates (ops : List (Op D P)) (i : Nat) (d : D) (post : List (Op D P)) : Prop :=
  ∃ pre k, ops = pre ++ .create k d :: post ∧ (created pre).length = i

/-- A transport of device `d` has been destroyed. -/
def Dead (ops : List (Op D P)) (d : D) : Prop := ∃ i post, Creates ops i d post ∧ .destroy i ∈ post

/-- The satellite that device `d` tracks. -/
def tracked [DecidableEq D] (remote : D → SatAddress) (d : D) : List (Op D P) → SatAddress
  | [] => remote d
  | .track d' a :: ops => tracked (fun x => if x = d' then a else remote x) d ops
  | _ :: ops => tracked remote d ops

end Spec

/-! ## Lemmas -/

variable {D P : Type} [DecidableEq D]

omit [DecidableEq D] in
theorem created_append (a b : List (Op D P)) : created (a ++ b) = created a ++ created b := by
  simp [created]

omit [DecidableEq D] in
theorem creates_snoc {ops : List (Op D P)} {o : Op D P} {i : Nat} {d : D} {post : List (Op D P)} (h : Creates ops i d post) :
    Creates (ops ++ [o]) i d (post ++ [o]) := by
  obtain ⟨pre, k, h1, h2⟩ := h
  exact ⟨pre, k, by simp [h1], h2⟩

omit [DecidableEq D] in
theorem creates_snoc_inv {ops : List (Op D P)} {o : Op D P} {i : Nat} {d : D} {post : List (Op D P)} (h : Creates (ops ++ [o]) i d post) :
    (∃ post', post = post' ++ [o] ∧ Creates ops i d post') ∨ (∃ k, o = .create k d ∧ post = [] ∧ i = (created ops).length) := by
  obtain ⟨pre, k, h1, h2⟩ := h
  rcases List.eq_nil_or_concat post with rfl | ⟨post', x, rfl⟩
  · right
    rw [List.append_inj_left' (t₁ := [o]) (t₂ := [.create k d]) h1 (by simp)]
    have := List.append_inj_right' (t₁ := [o]) (t₂ := [.create k d]) h1 (by simp)
    exact ⟨k, by simpa using this, rfl, h2.symm⟩
  · left
    have h3 : ops ++ [o] = (pre ++ .create k d :: post') ++ [x] := by simpa using h1
    have h4 := List.append_inj_left' h3 (by simp)
    have h5 := List.append_inj_right' h3 (by simp)
    simp only [List.cons.injEq, and_true] at h5
    subst h5
    exact ⟨post', by simp, pre, k, h4, h2⟩

omit [DecidableEq D] in
theorem creates_lt {ops : List (Op D P)} {i : Nat} {d : D} {post : List (Op D P)} (h : Creates ops i d post) : i < (created ops).length := by
  obtain ⟨pre, k, rfl, rfl⟩ := h
  rw [created_append]
  simp [created]

/-- The handlers reach the transports of the device. -/
theorem receive_other {proto : UInt16} {promisc : Bool} {d : D} {p : P} (hs : List (Handler D)) (objs : List (Obj D P))
    (hh : ∀ h ∈ hs, h.proto = frameType ∧ h.promisc = true) (hne : proto ≠ frameType ∨ promisc = false) :
    receiveFromDevice d proto promisc p hs objs = .ok objs := by
  induction hs with
  | nil => rfl
  | cons h hs ih =>
    unfold receiveFromDevice
    obtain ⟨h1, h2⟩ := hh h (by simp)
    rw [if_neg, ih (fun x hx => hh x (by simp [hx]))]
    rintro ⟨_, h3, h4⟩
    rw [h1] at h3
    rcases hne with hne | hne
    · rcases h3 with h3 | h3
      · exact absurd h3 (by decide)
      · exact hne h3.symm
    · rw [h2, hne] at h4; cases h4

theorem receive_ok {d : D} {p : P} (hs : List (Handler D)) (objs : List (Obj D P))
    (hh : ∀ h ∈ hs, h.proto = frameType ∧ h.promisc = true) (hn : (hs.map Handler.target).Nodup)
    (ha : ∀ h ∈ hs, h.device = d → ∃ o, objs[h.target]? = some o ∧ o.alive = true) :
    ∃ objs', receiveFromDevice d frameType true p hs objs = .ok objs' ∧
      ∀ i : Nat, ((∃ h ∈ hs, h.device = d ∧ h.target = i) → objs'[i]? = objs[i]?.map (fun o => { o with got := o.got ++ [p] })) ∧
        ((¬ ∃ h ∈ hs, h.device = d ∧ h.target = i) → objs'[i]? = objs[i]?) := by
  induction hs generalizing objs with
  | nil => exact ⟨objs, rfl, fun i => ⟨by simp, by simp⟩⟩
  | cons h hs ih =>
    obtain ⟨h1, h2⟩ := hh h (by simp)
    rw [List.map_cons, List.nodup_cons] at hn
    unfold receiveFromDevice
    by_cases hd : h.device = d
    · obtain ⟨o, ho, hal⟩ := ha h (by simp) hd
      have hlt : h.target < objs.length := by
        rcases List.getElem?_eq_some_iff.mp ho with ⟨hl, _⟩; exact hl
      rw [if_pos ⟨hd, Or.inr h1, h2⟩]
      unfold receiveFromNetDevice
      rw [ho]; simp only [if_pos hal]
      obtain ⟨objs', he, hi⟩ := ih (objs.set h.target { o with got := o.got ++ [p] }) (fun x hx => hh x (by simp [hx])) hn.2
        (by
          intro x hx hxd
          have hne : h.target ≠ x.target := fun hc => hn.1 (hc ▸ List.mem_map_of_mem hx)
          rw [List.getElem?_set_ne hne]
          exact ha x (by simp [hx]) hxd)
      refine ⟨objs', he, fun i => ?_⟩
      obtain ⟨hi1, hi2⟩ := hi i
      constructor
      · rintro ⟨x, hx, hxd, rfl⟩
        rcases List.mem_cons.mp hx with rfl | hx'
        · rw [hi2 (by rintro ⟨y, hy, _, hyt⟩; exact hn.1 (hyt ▸ List.mem_map_of_mem hy)), List.getElem?_set_self hlt, ho]
          rfl
        · have hne : h.target ≠ x.target := fun hc => hn.1 (hc ▸ List.mem_map_of_mem hx')
          rw [hi1 ⟨x, hx', hxd, rfl⟩, List.getElem?_set_ne hne]
      · intro hno
        rw [hi2 (by rintro ⟨y, hy, hyd, hyt⟩; exact hno ⟨y, by simp [hy], hyd, hyt⟩), List.getElem?_set_ne]
        intro hc
        exact hno ⟨h, by simp, hd, hc⟩
    · rw [if_neg (by simp [hd])]
      obtain ⟨objs', he, hi⟩ := ih objs (fun x hx => hh x (by simp [hx])) hn.2 (fun x hx => ha x (by simp [hx]))
      refine ⟨objs', he, fun i => ⟨?_, ?_⟩⟩
      · rintro ⟨x, hx, hxd, hxt⟩
        rcases List.mem_cons.mp hx with rfl | hx'
        · exact absurd hxd hd
        · exact (hi i).1 ⟨x, hx', hxd, hxt⟩
      · intro hno
        exact (hi i).2 (by rintro ⟨y, hy, hyd, hyt⟩; exact hno ⟨y, by simp [hy], hyd, hyt⟩)

theorem receive_dead {d : D} {p : P} (hs : List (Handler D)) (objs : List (Obj D P))
    (hh : ∀ h ∈ hs, h.proto = frameType ∧ h.promisc = true)
    (hd : ∃ h ∈ hs, h.device = d ∧ ∃ o, objs[h.target]? = some o ∧ o.alive = false) :
    receiveFromDevice d frameType true p hs objs = .ub .useAfterFree := by
  induction hs generalizing objs with
  | nil => simp at hd
  | cons h hs ih =>
    obtain ⟨h1, h2⟩ := hh h (by simp)
    have hh' : ∀ h ∈ hs, h.proto = frameType ∧ h.promisc = true := fun x hx => hh x (by simp [hx])
    unfold receiveFromDevice
    obtain ⟨x, hx, hxd, o, ho, hal⟩ := hd
    by_cases hdev : h.device = d
    · rw [if_pos ⟨hdev, Or.inr h1, h2⟩]
      unfold receiveFromNetDevice
      cases hob : objs[h.target]? with
      | none => rfl
      | some o' =>
        cases hal' : o'.alive with
        | false => simp [hal']
        | true =>
          simp only [hal', if_true]
          rcases List.mem_cons.mp hx with rfl | hx'
          · rw [ho] at hob; cases hob; rw [hal] at hal'; cases hal'
          · refine ih _ hh' ⟨x, hx', hxd, o, ?_, hal⟩
            have hne : h.target ≠ x.target := by
              intro hc; rw [hc, ho] at hob; cases hob; rw [hal] at hal'; cases hal'
            rw [List.getElem?_set_ne hne, ho]
    · rw [if_neg (by simp [hdev])]
      rcases List.mem_cons.mp hx with rfl | hx'
      · exact absurd hxd hdev
      · exact ih objs hh' ⟨x, hx', hxd, o, ho, hal⟩

theorem notify_ok {d : D} (objs : List (Obj D P)) (sl : List (D × Nat))
    (ha : ∀ x ∈ sl, x.1 = d → ∃ o, objs[x.2]? = some o ∧ o.alive = true) : notify d objs sl = .ok () := by
  induction sl with
  | nil => rfl
  | cons x sl ih =>
    obtain ⟨d', i⟩ := x
    have ih' := ih (fun x hx => ha x (by simp [hx]))
    unfold notify
    by_cases hd : d' = d
    · obtain ⟨o, ho, hal⟩ := ha (d', i) (by simp) hd
      simp [hd, ho, hal, ih']
    · simp [hd, ih']

theorem notify_dead {d : D} (objs : List (Obj D P)) (sl : List (D × Nat))
    (hd : ∃ x ∈ sl, x.1 = d ∧ ∃ o, objs[x.2]? = some o ∧ o.alive = false) : notify d objs sl = .ub .useAfterFree := by
  induction sl with
  | nil => simp at hd
  | cons x sl ih =>
    obtain ⟨y, hy, hyd, o, ho, hal⟩ := hd
    obtain ⟨d', i⟩ := x
    unfold notify
    by_cases hdev : d' = d
    · rw [if_pos hdev]
      cases hob : objs[i]? with
      | none => rfl
      | some o' =>
        cases hal' : o'.alive with
        | false => simp [hal']
        | true =>
          simp only [hal', if_true]
          rcases List.mem_cons.mp hy with rfl | hy'
          · rw [ho] at hob; cases hob; rw [hal] at hal'; cases hal'
          · exact ih ⟨y, hy', hyd, o, ho, hal⟩
    · rw [if_neg hdev]
      rcases List.mem_cons.mp hy with rfl | hy'
      · exact absurd hyd hdev
      · exact ih ⟨y, hy', hyd, o, ho, hal⟩

/-! ## Invariant -/

theorem framesOf_append (d : D) (a b : List (Op D P)) : framesOf d (a ++ b) = framesOf d a ++ framesOf d b := by
  simp [framesOf]

omit [DecidableEq D] in
theorem sendsOf_closed (i : Nat) (a : List (Op D P)) (o : Op D P) (h : .close i ∈ a) : sendsOf i (a ++ [o]) = sendsOf i a := by
  induction a with
  | nil => simp at h
  | cons x a ih =>
    cases x with
    | close j =>
      by_cases hj : j = i
      · simp [sendsOf, hj]
      · have hj' : ¬ i = j := fun h => hj h.symm
        simp [hj'] at h
        simp [sendsOf, hj, ih h]
    | send j p => simp at h; simp [sendsOf, ih h]
    | create k d => simp at h; simp [sendsOf, ih h]
    | destroy j => simp at h; simp [sendsOf, ih h]
    | frame d proto p => simp at h; simp [sendsOf, ih h]
    | track d a => simp at h; simp [sendsOf, ih h]

omit [DecidableEq D] in
theorem sendsOf_open (i : Nat) (a : List (Op D P)) (o : Op D P) (h : .close i ∉ a) :
    sendsOf i (a ++ [o]) = sendsOf i a ++ sendsOf i [o] := by
  induction a with
  | nil => simp [sendsOf]
  | cons x a ih =>
    cases x with
    | close j =>
      simp only [List.mem_cons, Op.close.injEq, not_or] at h
      have hj' : ¬ j = i := fun hc => h.1 hc.symm
      simp [sendsOf, hj', ih h.2]
    | send j p =>
      simp at h
      by_cases hj : j = i <;> simp [sendsOf, hj, ih h]
    | create k d => simp at h; simp [sendsOf, ih h]
    | destroy j => simp at h; simp [sendsOf, ih h]
    | frame d proto p => simp at h; simp [sendsOf, ih h]
    | track d a => simp at h; simp [sendsOf, ih h]

omit [DecidableEq D] in
theorem sendsOf_other (i : Nat) (a : List (Op D P)) (o : Op D P) (h : sendsOf i [o] = []) : sendsOf i (a ++ [o]) = sendsOf i a := by
  by_cases hc : .close i ∈ a
  · exact sendsOf_closed i a o hc
  · rw [sendsOf_open i a o hc, h, List.append_nil]

theorem tracked_append (remote : D → SatAddress) (d : D) (a b : List (Op D P)) :
    tracked remote d (a ++ b) = tracked (fun x => tracked remote x a) d b := by
  induction a generalizing remote with
  | nil => rfl
  | cons x a ih => cases x <;> simp [tracked, ih]

/-- What is known of transport `i` of device `d` after `post`. -/
structure Agrees (s : Sys D P) (i : Nat) (d : D) (post : List (Op D P)) (o : Obj D P) : Prop where
  dev : o.device = d
  alive : o.alive = true ↔ .destroy i ∉ post
  closed : o.closed = true ↔ .close i ∈ post
  got : o.got = framesOf d post
  sent : (s.sent.filter (fun x => x.1 = i)).map Prod.snd = (sendsOf i post).map (fun p => (d, p, 0x7777))

structure Inv (kindOf : D → Kind) (remote : D → SatAddress) (ops : List (Op D P)) (s : Sys D P) : Prop where
  len : s.objs.length = (created ops).length
  obj : ∀ i d post, Creates ops i d post → ∃ o, s.objs[i]? = some o ∧ Agrees s i d post o
  made : ∀ i, i < (created ops).length → ∃ d post, Creates ops i d post
  flags : ∀ h ∈ s.handlers, h.proto = frameType ∧ h.promisc = true
  nodup : (s.handlers.map Handler.target).Nodup
  hfrom : ∀ h ∈ s.handlers, ∃ o, s.objs[h.target]? = some o ∧ o.device = h.device
  hto : ∀ i o, s.objs[i]? = some o → ∃ h ∈ s.handlers, h.device = o.device ∧ h.target = i
  slots : ∀ d i, (d, i) ∈ s.slots ↔ kindOf d = .groundSta ∧ ∃ o, s.objs[i]? = some o ∧ o.device = d
  rem : ∀ d, s.remote d = tracked remote d ops
  low : ∀ x ∈ s.sent, x.1 < s.objs.length

variable {kindOf : D → Kind} {remote : D → SatAddress} {e : Endian}

/-- Replacing one transport by another of the same device. -/
theorem Inv.handlers_set {s s' : Sys D P} {ops ops' : List (Op D P)} (h : Inv kindOf remote ops s)
    (hh : s'.handlers = s.handlers) (hs : s'.slots = s.slots)
    (hdev : ∀ i : Nat, (s'.objs[i]?).map Obj.device = (s.objs[i]?).map Obj.device)
    (hlen : s'.objs.length = (created ops').length)
    (hobj : ∀ i d post, Creates ops' i d post → ∃ o, s'.objs[i]? = some o ∧ Agrees s' i d post o)
    (hmade : ∀ i, i < (created ops').length → ∃ d post, Creates ops' i d post)
    (hrem : ∀ d, s'.remote d = tracked remote d ops') (hlow : ∀ x ∈ s'.sent, x.1 < s'.objs.length) : Inv kindOf remote ops' s' := by
  have hiff : ∀ (i : Nat) (d : D), (∃ o, s'.objs[i]? = some o ∧ o.device = d) ↔ ∃ o, s.objs[i]? = some o ∧ o.device = d := by
    intro i d
    have := hdev i
    constructor
    · rintro ⟨o, ho, rfl⟩
      rw [ho, Option.map_some] at this
      obtain ⟨o', ho', hd⟩ := Option.map_eq_some_iff.mp this.symm
      exact ⟨o', ho', hd⟩
    · rintro ⟨o, ho, rfl⟩
      rw [ho, Option.map_some] at this
      obtain ⟨o', ho', hd⟩ := Option.map_eq_some_iff.mp this
      exact ⟨o', ho', hd⟩
  refine ⟨hlen, hobj, hmade, hh ▸ h.flags, hh ▸ h.nodup, ?_, ?_, ?_, hrem, hlow⟩
  · intro x hx
    rw [hh] at hx
    exact (hiff _ _).mpr (h.hfrom x hx)
  · intro i o ho
    obtain ⟨o', ho', hd⟩ := (hiff i o.device).mp ⟨o, ho, rfl⟩
    obtain ⟨x, hx, hxd, hxt⟩ := h.hto i o' ho'
    exact ⟨x, hh ▸ hx, by rw [hxd, hd], hxt⟩
  · intro d i
    rw [hs, h.slots, hiff]

omit [DecidableEq D] in
/-- Operations that create nothing. -/
theorem creates_same {ops : List (Op D P)} {o : Op D P} (ho : ∀ k d, o ≠ .create k d) {i : Nat} {d : D} {post : List (Op D P)}
    (h : Creates (ops ++ [o]) i d post) : ∃ post', post = post' ++ [o] ∧ Creates ops i d post' := by
  rcases creates_snoc_inv h with h | ⟨k, rfl, _⟩
  · exact h
  · exact absurd rfl (ho k d)

omit [DecidableEq D] in
theorem created_same {ops : List (Op D P)} {o : Op D P} (ho : ∀ k d, o ≠ .create k d) : created (ops ++ [o]) = created ops := by
  rw [created_append]
  cases o with
  | create k d => exact absurd rfl (ho k d)
  | _ => simp [created]

theorem Inv.step {ops : List (Op D P)} {o : Op D P} {s s' : Sys D P} (h : Inv kindOf remote ops s)
    (hs : Transport.step e kindOf s o = some (.ok s')) : Inv kindOf remote (ops ++ [o]) s' := by
  cases o with
  | create k d =>
    simp only [Transport.step, construct, Option.some.injEq] at hs
    split at hs
    · cases hs
    · rename_i hk
      push Not at hk
      obtain ⟨hk1, hk2⟩ := hk
      simp only [Outcome.ok.injEq] at hs
      have hc : created (ops ++ [.create k d]) = created ops ++ [(k, d)] := by rw [created_append]; simp [created]
      have hnew : s.objs.length = (created ops).length := h.len
      have hget : ∀ (i : Nat) (o : Obj D P), s.objs[i]? = some o → s'.objs[i]? = some o := by
        intro i o ho
        obtain ⟨hl, _⟩ := List.getElem?_eq_some_iff.mp ho
        rw [← hs]
        simp only [List.getElem?_append_left hl, ho]
      have hlast : s'.objs[s.objs.length]? = some ⟨d, false, true, []⟩ := by rw [← hs]; simp
      have hinv : ∀ (i : Nat) (o : Obj D P), s'.objs[i]? = some o → s.objs[i]? = some o ∨ (i = s.objs.length ∧ o = ⟨d, false, true, []⟩) := by
        intro i o ho
        rw [← hs] at ho
        simp only at ho
        rcases Nat.lt_trichotomy i s.objs.length with hl | rfl | hl
        · rw [List.getElem?_append_left hl] at ho; exact Or.inl ho
        · right; simpa using ho.symm
        · rw [List.getElem?_eq_none (by simp; omega)] at ho; cases ho
      have hsent : s'.sent = s.sent := by rw [← hs]
      have hhand : s'.handlers = s.handlers ++ [⟨d, frameType, true, s.objs.length⟩] := by rw [← hs]
      refine ⟨?_, ?_, ?_, ?_, ?_, ?_, ?_, ?_, ?_, ?_⟩
      · rw [← hs, hc]; simp [h.len]
      · intro i d' post hcr
        rcases creates_snoc_inv hcr with ⟨post', rfl, hcr'⟩ | ⟨k', heq, rfl, rfl⟩
        · obtain ⟨o, ho, ha⟩ := h.obj i d' post' hcr'
          refine ⟨o, hget i o ho, ha.dev, ?_, ?_, ?_, ?_⟩
          · rw [ha.alive]; simp
          · rw [ha.closed]; simp
          · rw [ha.got, framesOf_append]; simp [framesOf]
          · rw [hsent, sendsOf_other _ _ _ (by simp [sendsOf])]; exact ha.sent
        · cases heq
          refine ⟨_, h.len ▸ hlast, rfl, by simp, by simp, by simp [framesOf], ?_⟩
          rw [hsent, List.filter_eq_nil_iff.mpr]
          · simp [sendsOf]
          · intro x hx
            have := h.low x hx
            simp; omega
      · intro i hi
        rw [hc, List.length_append, List.length_singleton] at hi
        rcases Nat.lt_or_ge i (created ops).length with hl | hl
        · obtain ⟨d', post, hcr⟩ := h.made i hl
          exact ⟨d', post ++ [.create k d], creates_snoc hcr⟩
        · exact ⟨d, [], ops, k, rfl, by omega⟩
      · intro x hx
        rw [hhand, List.mem_append] at hx
        rcases hx with hx | hx
        · exact h.flags x hx
        · simp only [List.mem_singleton] at hx; subst hx; exact ⟨rfl, rfl⟩
      · rw [hhand, List.map_append, List.nodup_append]
        refine ⟨h.nodup, by simp, ?_⟩
        rintro x hx y hy rfl
        obtain ⟨z, hz, rfl⟩ := List.mem_map.mp hx
        obtain ⟨o, ho, _⟩ := h.hfrom z hz
        obtain ⟨hl, _⟩ := List.getElem?_eq_some_iff.mp ho
        simp only [List.map_cons, List.map_nil, List.mem_singleton] at hy
        omega
      · intro x hx
        rw [hhand, List.mem_append] at hx
        rcases hx with hx | hx
        · obtain ⟨o, ho, hd⟩ := h.hfrom x hx
          exact ⟨o, hget _ _ ho, hd⟩
        · simp only [List.mem_singleton] at hx; subst hx; exact ⟨_, hlast, rfl⟩
      · intro i o ho
        rw [hhand]
        rcases hinv i o ho with ho' | ⟨rfl, rfl⟩
        · obtain ⟨x, hx, hx2⟩ := h.hto i o ho'
          exact ⟨x, List.mem_append_left _ hx, hx2⟩
        · exact ⟨⟨d, frameType, true, s.objs.length⟩, by simp, rfl, rfl⟩
      · intro d' i
        have hsl : (d', i) ∈ s'.slots ↔ (d', i) ∈ s.slots ∨ (k = .groundSta ∧ d' = d ∧ i = s.objs.length) := by
          rw [← hs]
          by_cases hkg : k = .groundSta
          · simp [hkg]
          · simp [hkg]
        rw [hsl, h.slots]
        constructor
        · rintro (⟨h1, o, ho, hd⟩ | ⟨rfl, rfl, rfl⟩)
          · exact ⟨h1, o, hget _ _ ho, hd⟩
          · exact ⟨hk2, _, hlast, rfl⟩
        · rintro ⟨h1, o, ho, hd⟩
          rcases hinv i o ho with ho' | ⟨rfl, rfl⟩
          · exact Or.inl ⟨h1, o, ho', hd⟩
          · right
            simp only at hd
            subst hd
            exact ⟨by rw [← hk2, h1], rfl, rfl⟩
      · intro d'
        rw [tracked_append, ← hs]
        simp [tracked, h.rem]
      · intro x hx
        rw [hsent] at hx
        have := h.low x hx
        rw [← hs]; simp; omega
  | close i =>
    simp only [Transport.step] at hs
    split at hs
    · cases hs
    · rename_i o ho
      split at hs
      · simp only [Option.some.injEq, Outcome.ok.injEq] at hs
        obtain ⟨hl, _⟩ := List.getElem?_eq_some_iff.mp ho
        have hne : ∀ (k : Kind) (d : D), (Op.close i : Op D P) ≠ .create k d := by simp
        refine h.handlers_set (by rw [← hs]) (by rw [← hs]) ?_ ?_ ?_ ?_ ?_ ?_
        · intro j
          rw [← hs]
          by_cases hj : i = j
          · subst hj; simp [List.getElem?_set_self hl, ho]
          · simp [List.getElem?_set_ne hj]
        · rw [created_same hne, ← hs]; simp [h.len]
        · intro j d post hcr
          obtain ⟨post', rfl, hcr'⟩ := creates_same hne hcr
          obtain ⟨o', ho', ha⟩ := h.obj j d post' hcr'
          have hfr : framesOf d (post' ++ [Op.close i]) = framesOf d post' := by rw [framesOf_append]; simp [framesOf]
          have hse : sendsOf j (post' ++ [Op.close i]) = sendsOf j post' := sendsOf_other _ _ _ (by simp [sendsOf])
          by_cases hj : i = j
          · subst hj
            rw [ho] at ho'
            cases ho'
            refine ⟨{ o with closed := true }, by rw [← hs]; exact List.getElem?_set_self hl, ha.dev, ?_, ?_, ?_, ?_⟩
            · simp only [ha.alive]; simp
            · simp
            · rw [hfr]; exact ha.got
            · rw [hse, ← hs]; exact ha.sent
          · have hj' : ¬ j = i := fun hc => hj hc.symm
            refine ⟨o', by rw [← hs]; simpa [List.getElem?_set_ne hj] using ho', ha.dev, ?_, ?_, ?_, ?_⟩
            · simp only [ha.alive]; simp
            · simp [ha.closed, hj']
            · rw [hfr]; exact ha.got
            · rw [hse, ← hs]; exact ha.sent
        · intro j hj
          rw [created_same hne] at hj
          obtain ⟨d, post, hcr⟩ := h.made j hj
          exact ⟨d, _, creates_snoc hcr⟩
        · intro d
          rw [tracked_append, ← hs]
          simp [tracked, h.rem]
        · intro x hx
          rw [← hs] at hx ⊢
          simpa using h.low x hx
      · cases hs
  | destroy i =>
    simp only [Transport.step] at hs
    split at hs
    · cases hs
    · rename_i o ho
      split at hs
      · simp only [Option.some.injEq, Outcome.ok.injEq] at hs
        obtain ⟨hl, _⟩ := List.getElem?_eq_some_iff.mp ho
        have hne : ∀ (k : Kind) (d : D), (Op.destroy i : Op D P) ≠ .create k d := by simp
        refine h.handlers_set (by rw [← hs]) (by rw [← hs]) ?_ ?_ ?_ ?_ ?_ ?_
        · intro j
          rw [← hs]
          by_cases hj : i = j
          · subst hj; simp [List.getElem?_set_self hl, ho]
          · simp [List.getElem?_set_ne hj]
        · rw [created_same hne, ← hs]; simp [h.len]
        · intro j d post hcr
          obtain ⟨post', rfl, hcr'⟩ := creates_same hne hcr
          obtain ⟨o', ho', ha⟩ := h.obj j d post' hcr'
          have hfr : framesOf d (post' ++ [Op.destroy i]) = framesOf d post' := by rw [framesOf_append]; simp [framesOf]
          have hse : sendsOf j (post' ++ [Op.destroy i]) = sendsOf j post' := sendsOf_other _ _ _ (by simp [sendsOf])
          by_cases hj : i = j
          · subst hj
            rw [ho] at ho'
            cases ho'
            refine ⟨{ o with alive := false }, by rw [← hs]; exact List.getElem?_set_self hl, ha.dev, ?_, ?_, ?_, ?_⟩
            · simp
            · simp only [ha.closed]; simp
            · rw [hfr]; exact ha.got
            · rw [hse, ← hs]; exact ha.sent
          · have hj' : ¬ j = i := fun hc => hj hc.symm
            refine ⟨o', by rw [← hs]; simpa [List.getElem?_set_ne hj] using ho', ha.dev, ?_, ?_, ?_, ?_⟩
            · simp [ha.alive, hj']
            · simp [ha.closed]
            · rw [hfr]; exact ha.got
            · rw [hse, ← hs]; exact ha.sent
        · intro j hj
          rw [created_same hne] at hj
          obtain ⟨d, post, hcr⟩ := h.made j hj
          exact ⟨d, _, creates_snoc hcr⟩
        · intro d
          rw [tracked_append, ← hs]
          simp [tracked, h.rem]
        · intro x hx
          rw [← hs] at hx ⊢
          simpa using h.low x hx
      · cases hs
  | send i p =>
    simp only [Transport.step] at hs
    split at hs
    · cases hs
    · rename_i o ho
      split at hs
      · simp only [Option.some.injEq, Outcome.ok.injEq] at hs
        obtain ⟨hl, _⟩ := List.getElem?_eq_some_iff.mp ho
        have hne : ∀ (k : Kind) (d : D), (Op.send i p : Op D P) ≠ .create k d := by simp
        have hob : s'.objs = s.objs := by rw [← hs]; split <;> rfl
        have hse : s'.sent = s.sent ++ (if o.closed then [] else [(i, o.device, p, frameType)]) := by
          rw [← hs]; cases o.closed <;> simp
        refine h.handlers_set (by rw [← hs]; split <;> rfl) (by rw [← hs]; split <;> rfl) ?_ ?_ ?_ ?_ ?_ ?_
        · intro j; rw [hob]
        · rw [created_same hne, hob, h.len]
        · intro j d post hcr
          obtain ⟨post', rfl, hcr'⟩ := creates_same hne hcr
          obtain ⟨o', ho', ha⟩ := h.obj j d post' hcr'
          refine ⟨o', hob ▸ ho', ha.dev, ?_, ?_, ?_, ?_⟩
          · simp [ha.alive]
          · simp [ha.closed]
          · rw [framesOf_append, ha.got]; simp [framesOf]
          · rw [hse, List.filter_append, List.map_append, ha.sent]
            by_cases hj : i = j
            · subst hj
              rw [ho] at ho'
              cases ho'
              cases hcl : o.closed with
              | true =>
                rw [sendsOf_closed _ _ _ (ha.closed.mp hcl)]
                simp
              | false =>
                have : .close i ∉ post' := fun hc => by rw [ha.closed.mpr hc] at hcl; cases hcl
                rw [sendsOf_open _ _ _ this]
                simp [sendsOf, ha.dev, frameType]
            · rw [sendsOf_other _ _ _ (by simp [sendsOf, hj])]
              have : ((if o.closed then [] else [(i, o.device, p, frameType)]) : List (Nat × D × P × UInt16)).filter
                  (fun x => decide (x.1 = j)) = [] := by
                cases o.closed <;> simp [hj]
              rw [this]; simp
        · intro j hj
          rw [created_same hne] at hj
          obtain ⟨d, post, hcr⟩ := h.made j hj
          exact ⟨d, _, creates_snoc hcr⟩
        · intro d
          rw [tracked_append]
          simp only [tracked]
          rw [← h.rem, ← hs]; split <;> rfl
        · intro x hx
          rw [hob]
          rw [hse, List.mem_append] at hx
          rcases hx with hx | hx
          · exact h.low x hx
          · cases hcl : o.closed <;> simp [hcl] at hx
            subst hx; exact hl
      · cases hs
  | frame d proto p =>
    have hne : ∀ (k : Kind) (d' : D), (Op.frame d proto p : Op D P) ≠ .create k d' := by simp
    simp only [Transport.step, passUp, Option.some.injEq] at hs
    obtain ⟨objs1, h1, h2⟩ := Outcome.bind_eq_ok.mp hs
    obtain ⟨objs2, h3, h4⟩ := Outcome.bind_eq_ok.mp h2
    rw [receive_other _ _ h.flags (Or.inr rfl)] at h3
    cases h3
    simp only [Outcome.ok.injEq] at h4
    have hkey : ∀ (i : Nat) (o : Obj D P), s.objs[i]? = some o →
        objs1[i]? = some (if o.device = d ∧ proto = 0x7777 then { o with got := o.got ++ [p] } else o) := by
      intro i o ho
      by_cases hp : proto = frameType
      · subst hp
        by_cases hall : ∀ x ∈ s.handlers, x.device = d → ∃ o, s.objs[x.target]? = some o ∧ o.alive = true
        · obtain ⟨objs', he, hi⟩ := receive_ok (p := p) s.handlers s.objs h.flags h.nodup hall
          rw [he] at h1
          cases h1
          obtain ⟨x, hx, hxd, hxt⟩ := h.hto i o ho
          by_cases hod : o.device = d
          · rw [(hi i).1 ⟨x, hx, by rw [hxd, hod], hxt⟩, ho, if_pos ⟨hod, rfl⟩]; rfl
          · rw [(hi i).2, ho, if_neg (by simp [hod])]
            rintro ⟨y, hy, hyd, hyt⟩
            obtain ⟨o', ho', hd'⟩ := h.hfrom y hy
            rw [hyt, ho] at ho'
            cases ho'
            exact hod (by rw [hd', hyd])
        · push Not at hall
          obtain ⟨x, hx, hxd, hxo⟩ := hall
          obtain ⟨o', ho', _⟩ := h.hfrom x hx
          have := hxo o' ho'
          rw [receive_dead s.handlers s.objs h.flags ⟨x, hx, hxd, o', ho', by simpa using this⟩] at h1
          cases h1
      · rw [receive_other _ _ h.flags (Or.inl hp)] at h1
        cases h1
        rw [ho, if_neg]
        rintro ⟨_, hc⟩; exact hp hc
    have hlen1 : objs1.length = s.objs.length := by
      by_cases hp : proto = frameType
      · subst hp
        by_cases hall : ∀ x ∈ s.handlers, x.device = d → ∃ o, s.objs[x.target]? = some o ∧ o.alive = true
        · obtain ⟨objs', he, hi⟩ := receive_ok (p := p) s.handlers s.objs h.flags h.nodup hall
          rw [he] at h1
          cases h1
          have hsome : ∀ i : Nat, (objs1[i]?).isSome = (s.objs[i]?).isSome := by
            intro i
            by_cases hc : ∃ h ∈ s.handlers, h.device = d ∧ h.target = i
            · rw [(hi i).1 hc]; simp
            · rw [(hi i).2 hc]
          have a := hsome s.objs.length
          have b := hsome objs1.length
          simp at a b
          omega
        · push Not at hall
          obtain ⟨x, hx, hxd, hxo⟩ := hall
          obtain ⟨o', ho', _⟩ := h.hfrom x hx
          have := hxo o' ho'
          rw [receive_dead s.handlers s.objs h.flags ⟨x, hx, hxd, o', ho', by simpa using this⟩] at h1
          cases h1
      · rw [receive_other _ _ h.flags (Or.inl hp)] at h1
        cases h1; rfl
    have hob : s'.objs = objs1 := by rw [← h4]
    refine h.handlers_set (by rw [← h4]) (by rw [← h4]) ?_ ?_ ?_ ?_ ?_ ?_
    · intro i
      rw [hob]
      cases ho : s.objs[i]? with
      | none =>
        have := List.getElem?_eq_none_iff.mp ho
        rw [List.getElem?_eq_none (by omega)]
      | some o =>
        rw [hkey i o ho]
        simp only [Option.map_some]
        split <;> rfl
    · rw [created_same hne, hob, hlen1, h.len]
    · intro j d' post hcr
      obtain ⟨post', rfl, hcr'⟩ := creates_same hne hcr
      obtain ⟨o', ho', ha⟩ := h.obj j d' post' hcr'
      have hse : sendsOf j (post' ++ [Op.frame d proto p]) = sendsOf j post' := sendsOf_other _ _ _ (by simp [sendsOf])
      have hsent : s'.sent = s.sent := by rw [← h4]
      refine ⟨_, hob ▸ hkey j o' ho', ?_, ?_, ?_, ?_, ?_⟩
      · split <;> exact ha.dev
      · have : (if o'.device = d ∧ proto = 0x7777 then { o' with got := o'.got ++ [p] } else o').alive = o'.alive := by split <;> rfl
        rw [this, ha.alive]; simp
      · have : (if o'.device = d ∧ proto = 0x7777 then { o' with got := o'.got ++ [p] } else o').closed = o'.closed := by split <;> rfl
        rw [this, ha.closed]; simp
      · rw [framesOf_append, ha.dev]
        by_cases hc : d' = d ∧ proto = 0x7777
        · rw [if_pos hc, ← ha.got]
          simp [framesOf, hc.1, hc.2]
        · have hc' : ¬ (d = d' ∧ proto = 0x7777) := fun hx => hc ⟨hx.1.symm, hx.2⟩
          rw [if_neg hc, ha.got]
          simp only [framesOf, List.filterMap_cons, List.filterMap_nil, if_neg hc', List.append_nil]
      · rw [hse, hsent]; exact ha.sent
    · intro j hj
      rw [created_same hne] at hj
      obtain ⟨d, post, hcr⟩ := h.made j hj
      exact ⟨d, _, creates_snoc hcr⟩
    · intro d
      rw [tracked_append, ← h4]
      simp [tracked, h.rem]
    · intro x hx
      rw [hob, hlen1]
      rw [← h4] at hx
      exact h.low x hx
  | track d a =>
    have hne : ∀ (k : Kind) (d' : D), (Op.track d a : Op D P) ≠ .create k d' := by simp
    have hs' : s' = { s with remote := fun x => if x = d then a else s.remote x } := by
      simp only [Transport.step, setRemoteAddress, Option.some.injEq] at hs
      split at hs
      · simp only [Outcome.ok.injEq] at hs; exact hs.symm
      · obtain ⟨_, _, h2⟩ := Outcome.bind_eq_ok.mp hs
        simp only [Outcome.ok.injEq] at h2; exact h2.symm
    refine h.handlers_set (by rw [hs']) (by rw [hs']) ?_ ?_ ?_ ?_ ?_ ?_
    · intro i; rw [hs']
    · rw [created_same hne, hs', h.len]
    · intro j d' post hcr
      obtain ⟨post', rfl, hcr'⟩ := creates_same hne hcr
      obtain ⟨o', ho', ha⟩ := h.obj j d' post' hcr'
      refine ⟨o', by rw [hs']; exact ho', ha.dev, ?_, ?_, ?_, ?_⟩
      · simp [ha.alive]
      · simp [ha.closed]
      · rw [framesOf_append, ha.got]; simp [framesOf]
      · rw [sendsOf_other _ _ _ (by simp [sendsOf]), hs']; exact ha.sent
    · intro j hj
      rw [created_same hne] at hj
      obtain ⟨d, post, hcr⟩ := h.made j hj
      exact ⟨d, _, creates_snoc hcr⟩
    · intro d'
      rw [tracked_append, hs']
      simp [tracked, h.rem]
    · intro x hx
      rw [hs'] at hx ⊢
      exact h.low x hx

theorem inv_exec {ops : List (Op D P)} {s : Sys D P} (h : exec e kindOf remote ops = some (.ok s)) : Inv kindOf remote ops s := by
  refine run_induction (P := fun ops s => Inv kindOf remote ops s) ?_ ?_ h
  · refine ⟨rfl, ?_, ?_, by simp [Sys.init], by simp [Sys.init], by simp [Sys.init], by simp [Sys.init], by simp [Sys.init], fun d => rfl, by simp [Sys.init]⟩
    · intro i d post hcr
      have := creates_lt hcr
      simp [created] at this
    · intro i hi; simp [created] at hi
  · intro ops o s s' _ hi hs
    exact hi.step hs

/-! ## C61 -/

/-- C61, receiving: a transport gets the NDN packets that its own device passes up from its creation on, each exactly once and in order, and nothing
else — also after it has been closed. -/
theorem C61_received {ops : List (Op D P)} {s : Sys D P} (h : exec e kindOf remote ops = some (.ok s)) {i : Nat} {d : D} {post : List (Op D P)}
    (hc : Creates ops i d post) : ∃ o, s.objs[i]? = some o ∧ o.device = d ∧ o.got = framesOf d post := by
  obtain ⟨o, ho, ha⟩ := (inv_exec h).obj i d post hc
  exact ⟨o, ho, ha.dev, ha.got⟩

/-- C61, sending: the packets that NFD sends on a transport before closing it are given to its own device, in order, each once and with the NDN protocol
number; after closing none. -/
theorem C61_sent {ops : List (Op D P)} {s : Sys D P} (h : exec e kindOf remote ops = some (.ok s)) {i : Nat} {d : D} {post : List (Op D P)}
    (hc : Creates ops i d post) : (s.sent.filter (fun x => x.1 = i)).map Prod.snd = (sendsOf i post).map (fun p => (d, p, 0x7777)) := by
  obtain ⟨o, ho, ha⟩ := (inv_exec h).obj i d post hc
  exact ha.sent

theorem dead_iff {ops : List (Op D P)} {s : Sys D P} (h : Inv kindOf remote ops s) (d : D) :
    Dead ops d ↔ ∃ (i : Nat) (o : Obj D P), s.objs[i]? = some o ∧ o.device = d ∧ o.alive = false := by
  constructor
  · rintro ⟨i, post, hc, hd⟩
    obtain ⟨o, ho, ha⟩ := h.obj i d post hc
    refine ⟨i, o, ho, ha.dev, ?_⟩
    cases hal : o.alive with
    | false => rfl
    | true => exact absurd hd (ha.alive.mp hal)
  · rintro ⟨i, o, ho, rfl, hal⟩
    obtain ⟨hl, _⟩ := List.getElem?_eq_some_iff.mp ho
    obtain ⟨d, post, hc⟩ := h.made i (h.len ▸ hl)
    obtain ⟨o', ho', ha⟩ := h.obj i d post hc
    rw [ho] at ho'
    cases ho'
    refine ⟨i, post, ha.dev ▸ hc, ?_⟩
    by_contra hn
    rw [ha.alive.mpr hn] at hal
    cases hal

/-- C61, frames: an NDN frame passed up by a device calls a destroyed transport — undefined behaviour — exactly if a transport of that device has been
destroyed. -/
theorem C61_frame_ub {ops : List (Op D P)} {s : Sys D P} (h : exec e kindOf remote ops = some (.ok s)) (d : D) (p : P) :
    (Dead ops d → exec e kindOf remote (ops ++ [.frame d 0x7777 p]) = some (.ub .useAfterFree)) ∧
    (¬ Dead ops d → ∃ s', exec e kindOf remote (ops ++ [.frame d 0x7777 p]) = some (.ok s')) := by
  have hi := inv_exec h
  have hx : exec e kindOf remote (ops ++ [.frame d 0x7777 p]) = some (passUp s d frameType p) := by
    unfold exec at h ⊢
    rw [runFrom_append, h]
    simp only [runFrom_single]
    rfl
  rw [hx, dead_iff hi]
  unfold passUp
  constructor
  · rintro ⟨i, o, ho, hd, hal⟩
    obtain ⟨x, hx, hxd, hxt⟩ := hi.hto i o ho
    rw [receive_dead s.handlers s.objs hi.flags ⟨x, hx, by rw [hxd, hd], o, by rw [hxt]; exact ho, hal⟩]
    rfl
  · intro hn
    obtain ⟨objs', he, _⟩ := receive_ok (d := d) (p := p) s.handlers s.objs hi.flags hi.nodup (by
      intro x hx hxd
      obtain ⟨o, ho, hod⟩ := hi.hfrom x hx
      refine ⟨o, ho, ?_⟩
      cases hal : o.alive with
      | true => rfl
      | false => exact absurd ⟨_, o, ho, by rw [hod, hxd], hal⟩ hn)
    rw [he, Outcome.bind_ok, receive_other _ _ hi.flags (Or.inr rfl)]
    exact ⟨_, rfl⟩

/-- C61, frames of other protocols reach no transport and are harmless. -/
theorem C61_other_protocol {ops : List (Op D P)} {s : Sys D P} (h : exec e kindOf remote ops = some (.ok s)) (d : D) (proto : UInt16)
    (hp : proto ≠ 0x7777) (p : P) : exec e kindOf remote (ops ++ [.frame d proto p]) = some (.ok s) := by
  have hi := inv_exec h
  unfold exec at h ⊢
  rw [runFrom_append, h]
  simp only [runFrom_single, Transport.step, passUp]
  rw [receive_other _ _ hi.flags (Or.inl hp), Outcome.bind_ok, receive_other _ _ hi.flags (Or.inr rfl)]
  rfl

/-- C61, tracking: a change of the tracked satellite calls a destroyed transport exactly if a transport of that ground station has been destroyed. -/
theorem C61_track_ub {ops : List (Op D P)} {s : Sys D P} (h : exec e kindOf remote ops = some (.ok s)) (d : D) (a : SatAddress) :
    (a ≠ tracked remote d ops → Dead ops d → kindOf d = .groundSta →
      exec e kindOf remote (ops ++ [.track d a]) = some (.ub .useAfterFree)) ∧
    (a = tracked remote d ops ∨ ¬ Dead ops d ∨ kindOf d ≠ .groundSta → ∃ s', exec e kindOf remote (ops ++ [.track d a]) = some (.ok s')) := by
  have hi := inv_exec h
  have hx : exec e kindOf remote (ops ++ [.track d a]) = some (setRemoteAddress e s d a) := by
    unfold exec at h ⊢
    rw [runFrom_append, h]
    simp only [runFrom_single]
    rfl
  rw [hx, dead_iff hi, ← hi.rem]
  unfold setRemoteAddress
  constructor
  · rintro hne ⟨i, o, ho, hd, hal⟩ hk
    have : ((s.remote d).eq e a) = false := by
      cases hb : (s.remote d).eq e a with
      | false => rfl
      | true => exact absurd ((C01_eq_iff e _ _).mp hb).symm hne
    rw [if_neg (by simp [this]), notify_dead s.objs s.slots ⟨(d, i), (hi.slots d i).mpr ⟨hk, o, ho, hd⟩, rfl, o, ho, hal⟩]
    rfl
  · intro hc
    by_cases hb : (s.remote d).eq e a
    · rw [if_pos hb]; exact ⟨_, rfl⟩
    · rw [if_neg hb, notify_ok s.objs s.slots]
      · exact ⟨_, rfl⟩
      · rintro ⟨d', i⟩ hsl hd
        simp only at hd
        rw [hd] at hsl
        obtain ⟨hk, o, ho, hod⟩ := (hi.slots _ _).mp hsl
        refine ⟨o, ho, ?_⟩
        cases hal : o.alive with
        | true => rfl
        | false =>
          exfalso
          rcases hc with hc | hc | hc
          · exact hb ((C01_eq_iff e _ _).mpr hc.symm)
          · exact hc ⟨i, o, ho, hod, hal⟩
          · exact hc hk

/-- C61, construction: for a device of another type the constructor dereferences a null pointer; otherwise a transport is made. -/
theorem C61_construct {ops : List (Op D P)} {s : Sys D P} (h : exec e kindOf remote ops = some (.ok s)) (k : Kind) (hk : k ≠ .other) (d : D) :
    (kindOf d ≠ k → exec e kindOf remote (ops ++ [.create k d]) = some (.ub .nullDeref)) ∧
    (kindOf d = k → ∃ s', exec e kindOf remote (ops ++ [.create k d]) = some (.ok s')) := by
  have hx : exec e kindOf remote (ops ++ [.create k d]) = some (construct kindOf s k d) := by
    unfold exec at h ⊢
    rw [runFrom_append, h]
    simp only [runFrom_single]
    rfl
  rw [hx]
  unfold construct
  constructor
  · intro hne; rw [if_pos (Or.inr hne)]
  · intro heq; rw [if_neg (by simp [hk, heq])]; exact ⟨_, rfl⟩

/-! Non-vacuity: a node with a ground station (device 0), a satellite device (1), and another device (2). -/

def exKind : Nat → Kind := fun d => if d = 0 then .groundSta else if d = 1 then .sat2ground else .other

def exRemote : Nat → SatAddress := fun _ => SatAddress.default

def exOps : List (Op Nat Nat) :=
  [.create .groundSta 0, .frame 0 0x7777 10, .create .sat2ground 1, .frame 1 0x7777 20, .frame 1 0x800 21, .send 0 30, .close 0, .send 0 31,
    .frame 0 0x7777 11, .send 1 32, .track 0 ⟨1, 2, 3⟩]

/-- Both transports have received their own packets, the closed one also what came after `close`; what was sent after `close` is lost. -/
example : ∃ s, exec .little exKind exRemote exOps = some (.ok s) ∧ s.objs.map Obj.got = [[10, 11], [20]] ∧
    s.sent = [(0, 0, 30, 0x7777), (1, 1, 32, 0x7777)] := ⟨_, rfl, rfl, rfl⟩

example : Creates exOps 0 0 (exOps.drop 1) ∧ framesOf 0 (exOps.drop 1) = [10, 11] ∧ sendsOf 0 (exOps.drop 1) = [30] ∧
    Creates exOps 1 1 (exOps.drop 3) ∧ ¬ Dead exOps 0 := by
  refine ⟨⟨[], .groundSta, rfl, rfl⟩, rfl, rfl, ⟨exOps.take 2, .sat2ground, rfl, rfl⟩, ?_⟩
  rintro ⟨i, post, ⟨pre, k, h1, _⟩, h2⟩
  have h3 : Op.destroy i ∈ exOps := by rw [h1]; simp [h2]
  simp [exOps] at h3

/-- The face of the ground station is destroyed after it has been closed (NFD does this when a face is removed). -/
example : Dead (exOps ++ [.destroy 0]) 0 ∧ (∃ s, exec .little exKind exRemote (exOps ++ [.destroy 0]) = some (.ok s)) ∧
    exec .little exKind exRemote (exOps ++ [.destroy 0, .frame 0 0x7777 12]) = some (.ub .useAfterFree) ∧
    exec .little exKind exRemote (exOps ++ [.destroy 0, .track 0 ⟨3, 3, 3⟩]) = some (.ub .useAfterFree) ∧
    (∃ s, exec .little exKind exRemote (exOps ++ [.destroy 0, .track 0 ⟨1, 2, 3⟩, .frame 1 0x7777 12]) = some (.ok s)) :=
  ⟨⟨0, exOps.drop 1 ++ [.destroy 0], ⟨[], .groundSta, rfl, rfl⟩, by simp⟩, ⟨_, rfl⟩, rfl, rfl, ⟨_, rfl⟩⟩

example : exec .little exKind exRemote [.create .groundSta 2] = (some (.ub .nullDeref) : Option (Outcome (Sys Nat Nat))) := rfl

/-! ## C62: queue capacity -/

/-- C62, byte queues: the capacity is the limit of the queue. -/
theorem C62_bytes (v : UInt32) : capacity (some (.bytes, v)) = .ok v.toNat := rfl

/-- C62, packet queues: below 2863312 packets the capacity is 1500 bytes for each packet, from there on it is less, the product modulo 2^32. -/
theorem C62_packets (v : UInt32) : ∃ c, capacity (some (.packets, v)) = .ok c ∧ c = v.toNat * 1500 % 2 ^ 32 ∧
    (v.toNat < 2863312 ↔ c = v.toNat * 1500) ∧ (2863312 ≤ v.toNat ↔ c < v.toNat * 1500) := by
  have h1 : (v * 1500).toNat = v.toNat * 1500 % 2 ^ 32 := by
    rw [UInt32.toNat_mul]; rfl
  refine ⟨_, rfl, h1, ?_, ?_⟩ <;> rw [h1] <;> omega

/-- C62, use: while the capacity does not wrap, the queue's contents stay within it if no packet is longer than 1500 bytes; a queue that is full of
packets of 1500 bytes exceeds the capacity told exactly when it has wrapped. -/
theorem C62_bound (v : UInt32) (c : Nat) (hc : capacity (some (.packets, v)) = .ok c) :
    (v.toNat < 2863312 → ∀ lens : List Nat, lens.length ≤ v.toNat → (∀ l ∈ lens, l ≤ 1500) → lens.sum ≤ c) ∧
    (c < (List.replicate v.toNat 1500).sum ↔ 2863312 ≤ v.toNat) := by
  obtain ⟨c', h1, h2, h3, h4⟩ := C62_packets v
  rw [h1] at hc
  cases hc
  constructor
  · intro hv lens hl hb
    rw [h3.mp hv]
    have hsum : ∀ l : List Nat, (∀ x ∈ l, x ≤ 1500) → l.sum ≤ l.length * 1500 := by
      intro l
      induction l with
      | nil => simp
      | cons x l ih =>
        intro hx
        have h1 := hx x (by simp)
        have h2 := ih (fun y hy => hx y (by simp [hy]))
        simp only [List.sum_cons, List.length_cons]
        omega
    calc lens.sum ≤ lens.length * 1500 := hsum lens hb
      _ ≤ v.toNat * 1500 := Nat.mul_le_mul_right _ hl
  · rw [List.sum_replicate_nat, h4]

/-- C62, the worst case: a queue for 2^30 packets is announced as having no capacity at all. -/
theorem C62_zero : capacity (some (.packets, 1073741824)) = .ok 0 := rfl

/-- C62: a device without a queue is not noticed. -/
theorem C62_no_queue : capacity none = .ub .nullDeref := rfl

example : capacity (some (.packets, 100)) = .ok 150000 := rfl
example : capacity (some (.packets, 2863312)) = .ok 704 := rfl

end Transport
end Icarus
