import Verif.Model.GeoTag
import Verif.Props.Isl

/-!
# Properties C13 – C16: GeoTag forwarding

Specification vocabulary: ring distance, torus distance, walks over the inter-satellite links (`TorusAdj`, the relation that
`C11_links_are_torus_grid` proves to be exactly the installed links).
-/

set_option autoImplicit false

namespace Icarus
open GeoTag

/-! ## Specification -/

/-- Number of steps between two places of a ring of `m` places, taking the shorter way round. -/
def ringDist (m a b : Nat) : Nat := min (max a b - min a b) (m - (max a b - min a b))

/-- Hop distance on the torus. -/
def torusDist (n s : Nat) (a b : Nat × Nat) : Nat := ringDist n a.1 b.1 + ringDist s a.2 b.2

/-- `a` can be joined to `b` by `k` consecutive inter-satellite links. -/
inductive Walk (n s : Nat) : Nat → Nat × Nat → Nat × Nat → Prop
  | nil (a) : Walk n s 0 a a
  | cons {k a b c} : TorusAdj n s a b → Walk n s k b c → Walk n s (k + 1) a c

/-- The satellite lying in a given direction from `a` (`none`: down to the ground). -/
def neighbour (n s : Nat) (a : Nat × Nat) : Target → Option (Nat × Nat)
  | .sendToGround => none
  | .nextPlane => some (if a.1 + 1 = n then 0 else a.1 + 1, a.2)
  | .previousPlane => some (if a.1 = 0 then n - 1 else a.1 - 1, a.2)
  | .nextSat => some (a.1, if a.2 + 1 = s then 0 else a.2 + 1)
  | .previousSat => some (a.1, if a.2 = 0 then s - 1 else a.2 - 1)

/-- Next satellite chosen at `a` for an Interest tagged with `t`. -/
def hop (n s : Nat) (t a : Nat × Nat) : Option (Nat × Nat) := neighbour n s a (getTarget n s t.1 t.2 a.1 a.2)

/-! ## C13 -/

theorem getTarget_cases (n s : Nat) (t a : Nat × Nat) :
    (getTarget n s t.1 t.2 a.1 a.2 = .sendToGround ∧ t.1 = a.1 ∧ t.2 = a.2) ∨
    (getTarget n s t.1 t.2 a.1 a.2 = .nextSat ∧ t.1 = a.1 ∧
      (a.2 < t.2 ∧ t.2 - a.2 ≤ s / 2 ∨ t.2 < a.2 ∧ s / 2 < a.2 - t.2)) ∨
    (getTarget n s t.1 t.2 a.1 a.2 = .previousSat ∧ t.1 = a.1 ∧
      (a.2 < t.2 ∧ s / 2 < t.2 - a.2 ∨ t.2 < a.2 ∧ a.2 - t.2 ≤ s / 2)) ∨
    (getTarget n s t.1 t.2 a.1 a.2 = .nextPlane ∧
      (a.1 < t.1 ∧ t.1 - a.1 ≤ n / 2 ∨ t.1 < a.1 ∧ n / 2 < a.1 - t.1)) ∨
    (getTarget n s t.1 t.2 a.1 a.2 = .previousPlane ∧
      (a.1 < t.1 ∧ n / 2 < t.1 - a.1 ∨ t.1 < a.1 ∧ a.1 - t.1 ≤ n / 2)) := by
  have hd : ∀ m : Nat, Int.tdiv (m : Int) 2 = ((m / 2 : Nat) : Int) := fun m => by
    rw [Int.tdiv_eq_ediv_of_nonneg (by omega)]; omega
  have hnd : ∀ m : Nat, Int.tdiv (-(m : Int)) 2 = -((m / 2 : Nat) : Int) := fun m => by
    rw [Int.neg_tdiv, hd]
  unfold getTarget
  simp only [hd, hnd]
  split
  · rename_i h1
    split
    · rename_i h2; exact Or.inl ⟨rfl, h1, h2⟩
    · split
      · split
        · exact Or.inr (Or.inl ⟨rfl, h1, by omega⟩)
        · exact Or.inr (Or.inr (Or.inl ⟨rfl, h1, by omega⟩))
      · split
        · exact Or.inr (Or.inr (Or.inl ⟨rfl, h1, by omega⟩))
        · exact Or.inr (Or.inl ⟨rfl, h1, by omega⟩)
  · split
    · split
      · exact Or.inr (Or.inr (Or.inr (Or.inl ⟨rfl, by omega⟩)))
      · exact Or.inr (Or.inr (Or.inr (Or.inr ⟨rfl, by omega⟩)))
    · split
      · exact Or.inr (Or.inr (Or.inr (Or.inr ⟨rfl, by omega⟩)))
      · exact Or.inr (Or.inr (Or.inr (Or.inl ⟨rfl, by omega⟩)))

theorem ringDist_step_next {m a t : Nat} (ha : a < m) (ht : t < m)
    (h : a < t ∧ t - a ≤ m / 2 ∨ t < a ∧ m / 2 < a - t) :
    ringDist m (if a + 1 = m then 0 else a + 1) t + 1 = ringDist m a t := by
  unfold ringDist; split <;> omega

theorem ringDist_step_prev {m a t : Nat} (ha : a < m) (ht : t < m)
    (h : a < t ∧ m / 2 < t - a ∨ t < a ∧ a - t ≤ m / 2) :
    ringDist m (if a = 0 then m - 1 else a - 1) t + 1 = ringDist m a t := by
  unfold ringDist; split <;> omega

theorem ringNbr_next {m a t : Nat} (ha : a < m) (ht : t < m) (hne : t ≠ a) :
    RingNbr m a (if a + 1 = m then 0 else a + 1) := by
  unfold RingNbr; rw [ring_succ_mod ha]
  refine ⟨ha, ?_, ?_, Or.inl rfl⟩ <;> split <;> omega

theorem ringNbr_prev {m a t : Nat} (ha : a < m) (ht : t < m) (hne : t ≠ a) :
    RingNbr m a (if a = 0 then m - 1 else a - 1) := by
  unfold RingNbr
  have hlt : (if a = 0 then m - 1 else a - 1) < m := by split <;> omega
  refine ⟨ha, hlt, by split <;> omega, Or.inr ?_⟩
  rw [ring_succ_mod hlt]; split <;> split <;> omega

/-- The chosen hop: from the destination itself down to the ground; from anywhere else over an existing link to a satellite
that is exactly one hop closer. -/
theorem C13_progress {n s : Nat} {t a : Nat × Nat} (ht : t.1 < n ∧ t.2 < s) (ha : a.1 < n ∧ a.2 < s) :
    (hop n s t a = none ↔ a = t) ∧
    (∀ b, hop n s t a = some b → TorusAdj n s a b ∧ b.1 < n ∧ b.2 < s ∧ torusDist n s b t + 1 = torusDist n s a t) := by
  obtain ⟨t1, t2⟩ := t
  obtain ⟨a1, a2⟩ := a
  simp only at ht ha
  unfold hop
  rcases getTarget_cases n s (t1, t2) (a1, a2) with ⟨h, h1, h2⟩ | ⟨h, h1, h2⟩ | ⟨h, h1, h2⟩ | ⟨h, h2⟩ | ⟨h, h2⟩ <;>
    (try simp only at h1) <;> simp only at h h2 <;> rw [h] <;> simp only [neighbour]
  · subst h1 h2; simp
  · subst h1
    have hne : t2 ≠ a2 := by omega
    refine ⟨by simp; omega, ?_⟩
    rintro b hb
    simp only [Option.some.injEq] at hb
    subst hb
    have hr := ringNbr_next ha.2 ht.2 hne
    refine ⟨⟨ha.1, ha.2, Or.inl ⟨rfl, hr⟩⟩, ha.1, hr.2.1, ?_⟩
    have := ringDist_step_next ha.2 ht.2 h2
    simp only [torusDist]; omega
  · subst h1
    have hne : t2 ≠ a2 := by omega
    refine ⟨by simp; omega, ?_⟩
    rintro b hb
    simp only [Option.some.injEq] at hb
    subst hb
    have hr := ringNbr_prev ha.2 ht.2 hne
    refine ⟨⟨ha.1, ha.2, Or.inl ⟨rfl, hr⟩⟩, ha.1, hr.2.1, ?_⟩
    have := ringDist_step_prev ha.2 ht.2 h2
    simp only [torusDist]; omega
  · have hne : t1 ≠ a1 := by omega
    refine ⟨by simp; omega, ?_⟩
    rintro b hb
    simp only [Option.some.injEq] at hb
    subst hb
    have hr := ringNbr_next ha.1 ht.1 hne
    refine ⟨⟨ha.1, ha.2, Or.inr ⟨rfl, hr⟩⟩, hr.2.1, ha.2, ?_⟩
    have := ringDist_step_next ha.1 ht.1 h2
    simp only [torusDist]; omega
  · have hne : t1 ≠ a1 := by omega
    refine ⟨by simp; omega, ?_⟩
    rintro b hb
    simp only [Option.some.injEq] at hb
    subst hb
    have hr := ringNbr_prev ha.1 ht.1 hne
    refine ⟨⟨ha.1, ha.2, Or.inr ⟨rfl, hr⟩⟩, hr.2.1, ha.2, ?_⟩
    have := ringDist_step_prev ha.1 ht.1 h2
    simp only [torusDist]; omega

example : ((5, 10) : Nat × Nat).1 < 6 ∧ ((5, 10) : Nat × Nat).2 < 11 ∧ hop 6 11 (5, 10) (0, 2) = some (5, 2) ∧
    hop 6 11 (5, 10) (5, 2) = some (5, 1) ∧ hop 6 11 (5, 10) (5, 10) = none := by decide

/-! ## C14 -/

/-- Satellites visited after `a`, and whether the walk ended by going down to the ground, within `fuel` hops. -/
def route (n s : Nat) (t : Nat × Nat) : Nat → Nat × Nat → List (Nat × Nat) × Bool
  | fuel, a =>
    match hop n s t a with
    | none => ([], true)
    | some b =>
      match fuel with
      | 0 => ([], false)
      | fuel + 1 => let r := route n s t fuel b; (b :: r.1, r.2)

theorem torusDist_self (n s : Nat) (t : Nat × Nat) : torusDist n s t t = 0 := by
  simp [torusDist, ringDist]

theorem ringDist_nbr {m a b t : Nat} (h : RingNbr m a b) (ht : t < m) : ringDist m a t ≤ ringDist m b t + 1 := by
  rw [ringNbr_iff] at h
  unfold ringDist
  rcases h with ⟨h1, h2, h | h | ⟨h3, h | h⟩⟩ <;> omega

/-- No walk over the links is shorter than the torus distance. -/
theorem C14_minimal {n s k : Nat} {a t : Nat × Nat} (ht : t.1 < n ∧ t.2 < s) (w : Walk n s k a t) :
    torusDist n s a t ≤ k := by
  induction w with
  | nil a => rw [torusDist_self]
  | cons h _ ih =>
    have ih := ih ht
    obtain ⟨-, -, ⟨h1, h2⟩ | ⟨h1, h2⟩⟩ := h
    · have := ringDist_nbr h2 ht.2
      simp only [torusDist, h1] at *; omega
    · have := ringDist_nbr h2 ht.1
      simp only [torusDist, h1] at *; omega

/-- Following the chosen hops from any satellite: the walk ends by going to the ground, at the satellite named by the tag, after
exactly the torus distance many hops, every hop uses an inter-satellite link, no satellite is visited twice (also not the
start), and fewer hops are impossible (`C14_minimal`). -/
theorem C14_delivery {n s : Nat} {t : Nat × Nat} (ht : t.1 < n ∧ t.2 < s) (fuel : Nat) (a : Nat × Nat)
    (ha : a.1 < n ∧ a.2 < s) (hf : torusDist n s a t ≤ fuel) :
    (route n s t fuel a).2 = true ∧ (route n s t fuel a).1.length = torusDist n s a t ∧
    (a :: (route n s t fuel a).1).getLast? = some t ∧
    (a :: (route n s t fuel a).1).IsChain (TorusAdj n s) ∧
    (a :: (route n s t fuel a).1).Nodup ∧
    Walk n s (torusDist n s a t) a t := by
  have key : ∀ fuel a, (a.1 < n ∧ a.2 < s) → torusDist n s a t ≤ fuel →
      (route n s t fuel a).2 = true ∧ (route n s t fuel a).1.length = torusDist n s a t ∧
      (a :: (route n s t fuel a).1).getLast? = some t ∧
      (a :: (route n s t fuel a).1).IsChain (TorusAdj n s) ∧
      (∀ b ∈ (route n s t fuel a).1, torusDist n s b t < torusDist n s a t) ∧
      (a :: (route n s t fuel a).1).Nodup ∧
      Walk n s (torusDist n s a t) a t := by
    intro fuel
    induction fuel with
    | zero =>
      intro a ha hf
      obtain ⟨h1, h2⟩ := C13_progress ht ha
      cases hh : hop n s t a with
      | none =>
        have hat := h1.mp hh
        subst hat
        unfold route
        simp [hh, torusDist_self, Walk.nil]
      | some b =>
        have := (h2 b hh).2.2.2
        omega
    | succ fuel ih =>
      intro a ha hf
      obtain ⟨h1, h2⟩ := C13_progress ht ha
      cases hh : hop n s t a with
      | none =>
        have hat := h1.mp hh
        subst hat
        unfold route
        simp [hh, torusDist_self, Walk.nil]
      | some b =>
        obtain ⟨hadj, hb1, hb2, hd⟩ := h2 b hh
        obtain ⟨i1, i2, i3, i4, i5, i6, i7⟩ := ih b ⟨hb1, hb2⟩ (by omega)
        have hr : route n s t (fuel + 1) a = (b :: (route n s t fuel b).1, (route n s t fuel b).2) := by
          conv_lhs => unfold route
          simp [hh]
        rw [hr]
        have hlt : ∀ c ∈ b :: (route n s t fuel b).1, torusDist n s c t < torusDist n s a t := by
          intro c hc
          rcases List.mem_cons.mp hc with rfl | hc
          · omega
          · have := i5 c hc; omega
        refine ⟨i1, ?_, ?_, ?_, hlt, ?_, ?_⟩
        · simp only [List.length_cons]; omega
        · rw [List.getLast?_cons_cons]; exact i3
        · exact List.isChain_cons_cons.mpr ⟨hadj, i4⟩
        · refine List.nodup_cons.mpr ⟨fun hm => ?_, i6⟩
          exact absurd (hlt a hm) (Nat.lt_irrefl _)
        · rw [← hd]; exact Walk.cons hadj i7
  obtain ⟨k1, k2, k3, k4, -, k6, k7⟩ := key fuel a ha hf
  exact ⟨k1, k2, k3, k4, k6, k7⟩

/-- Corollary: the torus distance really is the length of a shortest walk over the links, and the grid is connected. -/
theorem C14_shortest {n s : Nat} {a t : Nat × Nat} (ht : t.1 < n ∧ t.2 < s) (ha : a.1 < n ∧ a.2 < s) :
    Walk n s (torusDist n s a t) a t ∧ ∀ k, Walk n s k a t → torusDist n s a t ≤ k :=
  ⟨(C14_delivery ht _ a ha (Nat.le_refl _)).2.2.2.2.2, fun _ w => C14_minimal ht w⟩

/-- Diameter: never more than half of each ring. -/
theorem C14_diameter (n s : Nat) (a t : Nat × Nat) (hn : a.1 < n ∧ a.2 < s) (ht : t.1 < n ∧ t.2 < s) :
    torusDist n s a t ≤ n / 2 + s / 2 := by
  unfold torusDist ringDist; omega

example : route 6 11 (5, 10) 20 (1, 1) = ([(0, 1), (5, 1), (5, 0), (5, 10)], true) ∧
    torusDist 6 11 (1, 1) (5, 10) = 4 := by decide

/-! ## C16 -/

theorem findIf_ok {p : NextHop → Outcome Bool} {q : NextHop → Bool} {l : List NextHop}
    (h : ∀ x ∈ l, p x = .ok (q x)) : findIf p l = .ok (l.find? q) := by
  induction l with
  | nil => rfl
  | cons x xs ih =>
    have h1 := h x (by simp)
    have ih' := ih (fun y hy => h y (by simp [hy]))
    unfold findIf
    rw [h1, List.find?_cons]
    cases q x <;> simp [ih']

theorem findIf_mem {p : NextHop → Outcome Bool} {l : List NextHop} {h : NextHop}
    (e : findIf p l = .ok (some h)) : h ∈ l ∧ p h = .ok true := by
  induction l with
  | nil => simp [findIf] at e
  | cons x xs ih =>
    unfold findIf at e
    split at e
    · rename_i hx
      simp at e; subst e
      exact ⟨by simp, hx⟩
    · have := ih e; exact ⟨by simp [this.1], this.2⟩
    all_goals simp at e

/-- The satellite a next hop leads to: the far end of an inter-satellite link, the own satellite for the ground face. -/
def leadsTo (nh : NextHop) : Option (Nat × Nat) :=
  match nh.kind with
  | .noDevice => none
  | .isl e0 e1 first => some (if first then e1 else e0)
  | .other own => some own

/-- Next hops that fit the target: for `sendToGround` those leading to the satellite itself, for the two plane targets any leading to
the neighbouring plane, for the two position targets those leading to the neighbour in the same plane. -/
def fits (n s : Nat) (me : Nat × Nat) (tg : Target) (nh : NextHop) : Bool :=
  match leadsTo nh, neighbour n s me tg with
  | some a, none => a == me
  | some a, some b =>
    match tg with
    | .nextPlane | .previousPlane => a.1 == b.1
    | _ => a == b
  | none, _ => false

theorem matchTarget_ok {n s : Nat} {me : Nat × Nat} (hme : me.1 < n ∧ me.2 < s) {tg : Target} {nh : NextHop}
    (hk : nh.kind ≠ .noDevice) : matchTarget n s me tg nh = .ok (fits n s me tg nh) := by
  obtain ⟨face, kind⟩ := nh
  have hn0 : n ≠ 0 := by omega
  have hs0 : s ≠ 0 := by omega
  have hnext : ∀ m x : Nat, x < m → (x + 1) % m = if x + 1 = m then 0 else x + 1 := fun m x h => ring_succ_mod h
  have hprev : ∀ m x : Nat, x < m → (m + x - 1) % m = if x = 0 then m - 1 else x - 1 := by
    intro m x h
    split
    · rename_i h0; subst h0; rw [Nat.add_zero]; exact Nat.mod_eq_of_lt (by omega)
    · rw [show m + x - 1 = (x - 1) + m by omega, Nat.add_mod_right, Nat.mod_eq_of_lt (by omega)]
  have hb : ∀ x y : Nat × Nat, (x == y) = (x.1 == y.1 && x.2 == y.2) := fun x y => rfl
  have main : ∀ a : Nat × Nat, getSatAddress ⟨face, kind⟩ = .ok a → leadsTo ⟨face, kind⟩ = some a →
      matchTarget n s me tg ⟨face, kind⟩ = .ok (fits n s me tg ⟨face, kind⟩) := by
    intro a h1 h2
    cases tg <;>
      simp only [matchTarget, fits, h1, h2, neighbour, Outcome.bind_ok, Outcome.natMod, hn0, hs0, if_false,
        hnext n me.1 hme.1, hnext s me.2 hme.2, hprev n me.1 hme.1, hprev s me.2 hme.2, hb]
    all_goals
      by_cases h : a.1 = me.1
      · simp [h]
      · simp [h]
  cases kind with
  | noDevice => exact absurd rfl hk
  | isl e0 e1 f => exact main _ rfl rfl
  | other o => exact main _ rfl rfl

/-- A suppressed retransmission causes no action. -/
theorem C16_suppressed (env : Env) (h : env.suppression = .suppress) : afterReceiveInterest env = .ok [] := by
  simp [afterReceiveInterest, h]

/-- A tagged Interest received by a satellite on a device face: it goes to the first eligible next hop fitting the target, and to no
other; if there is none, one NoRoute Nack and the rejection of the pending Interest are the only actions. -/
theorem C16_tagged {env : Env} {t me : Nat × Nat} (hs : env.suppression ≠ .suppress) (ht : env.tag = some t)
    (hi : env.ingress ≠ .noDevice) (hthis : env.this = some me)
    (hme : me.1 < env.nPlanes ∧ me.2 < env.planeSize)
    (hk : ∀ h ∈ env.nexthops, env.eligible h = true → h.kind ≠ .noDevice) :
    let good := fun h => env.eligible h &&
      fits env.nPlanes env.planeSize me (getTarget env.nPlanes env.planeSize t.1 t.2 me.1 me.2) h
    (∀ h, env.nexthops.find? good = some h → afterReceiveInterest env = .ok [.sendInterest h.face]) ∧
    ((∀ h ∈ env.nexthops, good h = false) → afterReceiveInterest env = .ok [.sendNackNoRoute, .rejectPending]) := by
  have hd : hasNetDevice env.ingress = true := by
    cases h : env.ingress with
    | noDevice => exact absurd h hi
    | isl => rfl
    | other => rfl
  have hf := findIf_ok (p := matchTarget env.nPlanes env.planeSize me (getTarget env.nPlanes env.planeSize t.1 t.2 me.1 me.2))
    (q := fits env.nPlanes env.planeSize me (getTarget env.nPlanes env.planeSize t.1 t.2 me.1 me.2))
    (l := env.nexthops.filter env.eligible) (by
      intro x hx
      rw [List.mem_filter] at hx
      exact matchTarget_ok hme (hk x hx.1 hx.2))
  have hr : afterReceiveInterest env = .ok (sendOrNack (env.nexthops.find? (fun h => env.eligible h &&
      fits env.nPlanes env.planeSize me (getTarget env.nPlanes env.planeSize t.1 t.2 me.1 me.2) h))) := by
    unfold afterReceiveInterest
    rw [if_neg hs]
    simp only [ht, hd, hthis, Outcome.deref, Outcome.bind_ok, hf, List.find?_filter]
    congr 3
    funext x
    rw [Bool.eq_iff_iff]; simp
  refine ⟨fun h hh => ?_, fun hno => ?_⟩
  · rw [hr, hh]; rfl
  · rw [hr, List.find?_eq_none.mpr (fun x hx => by simp [hno x hx])]; rfl

/-- On a satellite whose FIB next hops lead to grid neighbours or to its own ground segment, a tagged Interest is never sent anywhere but
one hop closer to the destination (or down to the ground, exactly when the destination is reached); and it is sent there whenever
such an eligible next hop exists. -/
theorem C16_tagged_grid {env : Env} {t me : Nat × Nat} (hs : env.suppression ≠ .suppress) (ht : env.tag = some t)
    (hi : env.ingress ≠ .noDevice) (hthis : env.this = some me)
    (hme : me.1 < env.nPlanes ∧ me.2 < env.planeSize) (htr : t.1 < env.nPlanes ∧ t.2 < env.planeSize)
    (hfib : ∀ h ∈ env.nexthops, ∃ a, leadsTo h = some a ∧ (a = me ∨ TorusAdj env.nPlanes env.planeSize me a)) :
    (∀ h ∈ env.nexthops, env.eligible h = true → leadsTo h = some ((hop env.nPlanes env.planeSize t me).getD me) →
      ∃ g ∈ env.nexthops, env.eligible g = true ∧ leadsTo g = leadsTo h ∧
        afterReceiveInterest env = .ok [.sendInterest g.face]) ∧
    ((∀ h ∈ env.nexthops, env.eligible h = true → leadsTo h ≠ some ((hop env.nPlanes env.planeSize t me).getD me)) →
      afterReceiveInterest env = .ok [.sendNackNoRoute, .rejectPending]) := by
  have hk : ∀ h ∈ env.nexthops, env.eligible h = true → h.kind ≠ .noDevice := by
    intro h hh _ hkind
    obtain ⟨a, ha, -⟩ := hfib h hh
    simp [leadsTo, hkind] at ha
  -- fitting the target means leading to the chosen satellite
  have hfits : ∀ h ∈ env.nexthops,
      fits env.nPlanes env.planeSize me (getTarget env.nPlanes env.planeSize t.1 t.2 me.1 me.2) h = true ↔
        leadsTo h = some ((hop env.nPlanes env.planeSize t me).getD me) := by
    intro h hh
    obtain ⟨⟨a1, a2⟩, ha, hadj⟩ := hfib h hh
    obtain ⟨p, i⟩ := me
    obtain ⟨t1, t2⟩ := t
    unfold hop
    simp only [TorusAdj, ringNbr_iff, Prod.mk.injEq] at hadj hme htr ⊢
    rcases getTarget_cases env.nPlanes env.planeSize (t1, t2) (p, i) with ⟨h, h1, h2⟩ | ⟨h, h1, h2⟩ | ⟨h, h1, h2⟩ | ⟨h, h2⟩ | ⟨h, h2⟩ <;>
      (try simp only at h1) <;> simp only at h h2 <;> simp only [fits, ha, h, neighbour, Option.getD, beq_iff_eq, Option.some.injEq, Prod.mk.injEq]
    · constructor
      · intro e; refine ⟨e, ?_⟩; split at e <;> omega
      · exact fun e => e.1
    · constructor
      · intro e; refine ⟨e, ?_⟩; split at e <;> omega
      · exact fun e => e.1
  obtain ⟨c1, c2⟩ := C16_tagged hs ht hi hthis hme hk
  refine ⟨fun h hh he hl => ?_, fun hno => ?_⟩
  · cases hfnd : env.nexthops.find? (fun h => env.eligible h &&
        fits env.nPlanes env.planeSize me (getTarget env.nPlanes env.planeSize t.1 t.2 me.1 me.2) h) with
    | none =>
      rw [List.find?_eq_none] at hfnd
      exact absurd (by simp [he, (hfits h hh).mpr hl]) (hfnd h hh)
    | some g =>
      have hg := List.find?_some hfnd
      have hgm := List.mem_of_find?_eq_some hfnd
      simp only [Bool.and_eq_true] at hg
      exact ⟨g, hgm, hg.1, by rw [(hfits g hgm).mp hg.2, hl], c1 g hfnd⟩
  · apply c2
    intro h hh
    simp only [Bool.and_eq_false_iff]
    by_cases he : env.eligible h = true
    · right
      rw [Bool.eq_false_iff]
      intro hf
      exact hno h hh he ((hfits h hh).mp hf)
    · left; simpa using he

/-- New Interest without tag (or received on a face without device): first eligible next hop, or Nack and reject. -/
theorem C16_untagged_new (env : Env) (hs : env.suppression = .new)
    (ht : env.tag = none ∨ env.ingress = .noDevice) :
    (∀ h, env.nexthops.find? env.eligible = some h → afterReceiveInterest env = .ok [.sendInterest h.face]) ∧
    ((∀ h ∈ env.nexthops, env.eligible h = false) → afterReceiveInterest env = .ok [.sendNackNoRoute, .rejectPending]) := by
  have hr : afterReceiveInterest env = .ok (sendOrNack (env.nexthops.find? env.eligible)) := by
    unfold afterReceiveInterest
    rcases ht with h | h
    · simp [hs, h]
    · cases e : env.tag <;> simp [hs, h, hasNetDevice]
  refine ⟨fun h hh => by rw [hr, hh]; rfl, fun hno => ?_⟩
  rw [hr, List.find?_eq_none.mpr (fun x hx => by simp [hno x hx])]; rfl

theorem earliest_foldl (env : Env) : ∀ (l : List NextHop) (best : Option NextHop),
    let r := l.foldl (earliestStep env) best
    (r = none ↔ best = none ∧ ∀ h ∈ l, env.eligible h = false) ∧
    ∀ h, r = some h → (best = some h ∨ h ∈ l ∧ env.eligible h = true) ∧
      (∀ b, best = some b → env.lastRenewed h ≤ env.lastRenewed b) ∧
      (∀ g ∈ l, env.eligible g = true → env.lastRenewed h ≤ env.lastRenewed g) := by
  intro l
  induction l with
  | nil => intro best; simp; intro h hh; simp [hh]
  | cons x xs ih =>
    intro best
    simp only [List.foldl_cons]
    obtain ⟨i1, i2⟩ := ih (earliestStep env best x)
    refine ⟨?_, ?_⟩
    · rw [i1]
      unfold earliestStep
      by_cases he : env.eligible x = true
      · rw [if_pos he]
        constructor
        · rintro ⟨h, -⟩; cases best <;> simp at h; split at h <;> simp at h
        · rintro ⟨-, h⟩; simp [he] at h
      · rw [if_neg he]; simp [he]
    · intro h hr
      obtain ⟨j1, j2, j3⟩ := i2 h hr
      unfold earliestStep at j1 j2
      by_cases he : env.eligible x = true
      · rw [if_pos he] at j1 j2
        cases best with
        | none =>
          simp only [Option.some.injEq] at j1 j2
          refine ⟨Or.inr ?_, by simp, ?_⟩
          · rcases j1 with rfl | j1
            · exact ⟨by simp, he⟩
            · exact ⟨by simp [j1.1], j1.2⟩
          · intro g hg hge
            rcases List.mem_cons.mp hg with rfl | hg
            · exact j2 _ rfl
            · exact j3 g hg hge
        | some b =>
          simp only at j1 j2
          split at j1
          · rename_i hlt
            simp only [if_pos hlt, Option.some.injEq] at j1 j2
            refine ⟨Or.inr ?_, ?_, ?_⟩
            · rcases j1 with rfl | j1
              · exact ⟨by simp, he⟩
              · exact ⟨by simp [j1.1], j1.2⟩
            · intro b' hb'; simp at hb'; subst hb'
              have := j2 _ rfl; omega
            · intro g hg hge
              rcases List.mem_cons.mp hg with rfl | hg
              · exact j2 _ rfl
              · exact j3 g hg hge
          · rename_i hlt
            simp only [if_neg hlt, Option.some.injEq] at j1 j2
            refine ⟨?_, ?_, ?_⟩
            · rcases j1 with rfl | j1
              · exact Or.inl rfl
              · exact Or.inr ⟨by simp [j1.1], j1.2⟩
            · intro b' hb'; simp at hb'; subst hb'; exact j2 _ rfl
            · intro g hg hge
              rcases List.mem_cons.mp hg with rfl | hg
              · have := j2 _ rfl; omega
              · exact j3 g hg hge
      · rw [if_neg he] at j1 j2
        refine ⟨?_, j2, ?_⟩
        · rcases j1 with j1 | j1
          · exact Or.inl j1
          · exact Or.inr ⟨by simp [j1.1], j1.2⟩
        · intro g hg hge
          rcases List.mem_cons.mp hg with rfl | hg
          · exact absurd hge he
          · exact j3 g hg hge

/-- Unsuppressed retransmission without tag: first unused eligible next hop; if all are used, an eligible one with the earliest
out-record; if none is eligible, no action (and no Nack). -/
theorem C16_untagged_retransmission (env : Env) (hs : env.suppression = .forward)
    (ht : env.tag = none ∨ env.ingress = .noDevice) :
    (∀ h, env.nexthops.find? env.unused = some h → afterReceiveInterest env = .ok [.sendInterest h.face]) ∧
    ((∀ h ∈ env.nexthops, env.unused h = false) →
      ((∀ h ∈ env.nexthops, env.eligible h = false) → afterReceiveInterest env = .ok []) ∧
      ((∃ h ∈ env.nexthops, env.eligible h = true) →
        ∃ h ∈ env.nexthops, env.eligible h = true ∧ afterReceiveInterest env = .ok [.sendInterest h.face] ∧
          ∀ g ∈ env.nexthops, env.eligible g = true → env.lastRenewed h ≤ env.lastRenewed g)) := by
  have hr : afterReceiveInterest env = .ok (retransmit env) := by
    unfold afterReceiveInterest
    rcases ht with h | h
    · simp [hs, h]
    · cases e : env.tag <;> simp [hs, h, hasNetDevice]
  obtain ⟨e1, e2⟩ := earliest_foldl env env.nexthops none
  unfold retransmit at hr
  refine ⟨fun h hh => by rw [hr, hh], fun hun => ?_⟩
  rw [List.find?_eq_none.mpr (fun x hx => by simp [hun x hx])] at hr
  refine ⟨fun hno => ?_, fun ⟨h, hh, he⟩ => ?_⟩
  · rw [hr, e1.mpr ⟨rfl, hno⟩]
  · cases hfold : env.nexthops.foldl (earliestStep env) none with
    | none => have := (e1.mp hfold).2 h hh; simp [he] at this
    | some g =>
      obtain ⟨f1, -, f3⟩ := e2 g hfold
      rcases f1 with f1 | f1
      · simp at f1
      · exact ⟨g, f1.1, f1.2, by rw [hr, hfold], f3⟩

/-- Whatever happens, at most one copy is sent, and only to an eligible next hop of the FIB entry; an Interest is never both forwarded and
rejected.  (`unused` next hops are eligible ones.) -/
theorem C16_never_more_than_one (env : Env) (hunused : ∀ h, env.unused h = true → env.eligible h = true)
    (acts : List Action) (h : afterReceiveInterest env = .ok acts) :
    acts = [] ∨ acts = [.sendNackNoRoute, .rejectPending] ∨
      ∃ nh ∈ env.nexthops, env.eligible nh = true ∧ acts = [.sendInterest nh.face] := by
  have hson : ∀ (p : NextHop → Bool), (∀ h, p h = true → env.eligible h = true) → ∀ acts,
      Outcome.ok (sendOrNack (env.nexthops.find? p)) = .ok acts →
      acts = [] ∨ acts = [.sendNackNoRoute, .rejectPending] ∨
      ∃ nh ∈ env.nexthops, env.eligible nh = true ∧ acts = [.sendInterest nh.face] := by
    intro p hp acts h
    simp only [Outcome.ok.injEq] at h
    cases hf : env.nexthops.find? p with
    | none => rw [hf] at h; exact Or.inr (Or.inl h.symm)
    | some g =>
      rw [hf] at h
      exact Or.inr (Or.inr ⟨g, List.mem_of_find?_eq_some hf, hp g (List.find?_some hf), h.symm⟩)
  have hun : (if env.suppression = .new then (.ok (sendOrNack (env.nexthops.find? env.eligible)) : Outcome (List Action))
      else .ok (retransmit env)) = .ok acts → acts = [] ∨ acts = [.sendNackNoRoute, .rejectPending] ∨
      ∃ nh ∈ env.nexthops, env.eligible nh = true ∧ acts = [.sendInterest nh.face] := by
    intro h
    split at h
    · exact hson _ (fun _ h => h) acts h
    · simp only [Outcome.ok.injEq] at h
      unfold retransmit at h
      split at h
      · rename_i g hg
        exact Or.inr (Or.inr ⟨g, List.mem_of_find?_eq_some hg, hunused g (List.find?_some hg), h.symm⟩)
      · obtain ⟨e1, e2⟩ := earliest_foldl env env.nexthops none
        split at h
        · rename_i g hg
          obtain ⟨f1, -, -⟩ := e2 g hg
          rcases f1 with f1 | f1
          · simp at f1
          · exact Or.inr (Or.inr ⟨g, f1.1, f1.2, h.symm⟩)
        · exact Or.inl h.symm
  unfold afterReceiveInterest at h
  split at h
  · simp only [Outcome.ok.injEq] at h
    exact Or.inl h.symm
  · split at h
    · obtain ⟨me, -, h⟩ := Outcome.bind_eq_ok.mp h
      obtain ⟨found, hf, h⟩ := Outcome.bind_eq_ok.mp h
      simp only [Outcome.ok.injEq] at h
      cases found with
      | none => exact Or.inr (Or.inl h.symm)
      | some g =>
        have := (findIf_mem hf).1
        rw [List.mem_filter] at this
        exact Or.inr (Or.inr ⟨g, this.1, this.2, h.symm⟩)
    · exact hun h

/-- A tagged Interest makes the strategy dereference null when an eligible next hop without net device (for instance the face of a local
application) is met before a fitting one. -/
theorem C16_application_next_hop_is_ub (env : Env) (t me : Nat × Nat) (hs : env.suppression ≠ .suppress)
    (ht : env.tag = some t) (hi : env.ingress ≠ .noDevice) (hthis : env.this = some me)
    (h0 : NextHop) (rest : List NextHop) (hn : env.nexthops = h0 :: rest) (he : env.eligible h0 = true)
    (hk : h0.kind = .noDevice) : afterReceiveInterest env = .ub .nullDeref := by
  have hd : hasNetDevice env.ingress = true := by
    cases h : env.ingress with
    | noDevice => exact absurd h hi
    | isl => rfl
    | other => rfl
  unfold afterReceiveInterest
  rw [if_neg hs]
  simp [ht, hd, hthis, Outcome.deref, hn, he, findIf, matchTarget, getSatAddress, hk]

/-! ### C14 through the strategy code

A network of satellites: `net from at` is what the strategy sees at satellite `at` for an Interest that arrived from satellite `from`
(`from = at`: from the ground). -/

/-- The strategy code, run at every satellite on the way, sends the Interest over `k` links from `at` to `dest` and there to the ground. -/
inductive Delivered (net : Nat × Nat → Nat × Nat → Env) : Nat → Nat × Nat → Nat × Nat → Nat × Nat → Prop
  | ground {src at_ h} : h ∈ (net src at_).nexthops → afterReceiveInterest (net src at_) = .ok [.sendInterest h.face] →
      leadsTo h = some at_ → Delivered net 0 src at_ at_
  | link {src at_ h b k dest} : h ∈ (net src at_).nexthops →
      afterReceiveInterest (net src at_) = .ok [.sendInterest h.face] → leadsTo h = some b → TorusAdj (net src at_).nPlanes (net src at_).planeSize at_ b →
      Delivered net k at_ b dest → Delivered net (k + 1) src at_ dest

/-- A correctly configured network of `n x s` satellites handling an Interest tagged `t`: unsuppressed, device faces, each satellite's FIB
leads to exactly its grid neighbours and its own ground segment, and every next hop not leading back to where the Interest came
from is eligible. -/
structure GridNet (n s : Nat) (t : Nat × Nat) (net : Nat × Nat → Nat × Nat → Env) : Prop where
  planes : ∀ f a, (net f a).nPlanes = n
  size : ∀ f a, (net f a).planeSize = s
  unsup : ∀ f a, (net f a).suppression ≠ .suppress
  tagged : ∀ f a, (net f a).tag = some t
  ingress : ∀ f a, (net f a).ingress ≠ .noDevice
  this : ∀ f a, (net f a).this = some a
  fibSound : ∀ f a, ∀ h ∈ (net f a).nexthops, ∃ b, leadsTo h = some b ∧ (b = a ∨ TorusAdj n s a b)
  fibComplete : ∀ f a b, b = a ∨ TorusAdj n s a b → ∃ h ∈ (net f a).nexthops, leadsTo h = some b
  eligible : ∀ f a, ∀ h ∈ (net f a).nexthops, leadsTo h ≠ some f → (net f a).eligible h = true

/-- In a correctly configured network an Interest entering from the ground at any satellite `a` other than the tagged one is delivered to the
ground at the tagged satellite over exactly the minimum number of links. -/
theorem C14_strategy_delivers {n s : Nat} {t : Nat × Nat} {net : Nat × Nat → Nat × Nat → Env} (g : GridNet n s t net)
    (ht : t.1 < n ∧ t.2 < s) (a : Nat × Nat) (ha : a.1 < n ∧ a.2 < s) (hne : a ≠ t) :
    Delivered net (torusDist n s a t) a a t := by
  have key : ∀ k f a, (a.1 < n ∧ a.2 < s) → (f = a ∧ a ≠ t ∨ torusDist n s a t < torusDist n s f t) → torusDist n s a t = k →
      Delivered net k f a t := by
    intro k
    induction k with
    | zero =>
      intro f a ha hf hk
      have hat : a = t := by
        obtain ⟨h1, h2⟩ := C13_progress ht ha
        cases hh : hop n s t a with
        | none => exact h1.mp hh
        | some b => have := (h2 b hh).2.2.2; omega
      subst hat
      have hhop : hop n s a a = none := (C13_progress ht ha).1.mpr rfl
      have hfa : f ≠ a := by
        intro h; subst h
        rcases hf with ⟨-, h⟩ | h
        · exact h rfl
        · omega
      obtain ⟨h, hh, hl⟩ := g.fibComplete f a a (Or.inl rfl)
      have hgr := (C16_tagged_grid (g.unsup f a) (g.tagged f a) (g.ingress f a) (g.this f a)
        (by rw [g.planes, g.size]; exact ha) (by rw [g.planes, g.size]; exact ht)
        (by rw [g.planes, g.size]; exact g.fibSound f a)).1 h hh
        (g.eligible f a h hh (by rw [hl]; simpa using fun h => hfa h.symm)) (by rw [g.planes, g.size, hhop, hl]; rfl)
      obtain ⟨x, hx, -, hxl, hs⟩ := hgr
      exact Delivered.ground hx hs (by rw [hxl, hl])
    | succ k ih =>
      intro f a ha hf hk
      obtain ⟨h1, h2⟩ := C13_progress ht ha
      cases hh : hop n s t a with
      | none => have := h1.mp hh; subst this; rw [torusDist_self] at hk; omega
      | some b =>
        obtain ⟨hadj, hb1, hb2, hd⟩ := h2 b hh
        have hfb : f ≠ b := by
          intro h; subst h
          rcases hf with ⟨h, -⟩ | h
          · subst h; omega
          · omega
        obtain ⟨h, hhm, hl⟩ := g.fibComplete f a b (Or.inr hadj)
        have hgr := (C16_tagged_grid (g.unsup f a) (g.tagged f a) (g.ingress f a) (g.this f a)
          (by rw [g.planes, g.size]; exact ha) (by rw [g.planes, g.size]; exact ht)
          (by rw [g.planes, g.size]; exact g.fibSound f a)).1 h hhm
          (g.eligible f a h hhm (by rw [hl]; simpa using fun h => hfb h.symm)) (by rw [g.planes, g.size, hh, hl]; rfl)
        obtain ⟨x, hx, -, hxl, hs⟩ := hgr
        exact Delivered.link hx hs (by rw [hxl, hl]) (by rw [g.planes, g.size]; exact hadj)
          (ih a b ⟨hb1, hb2⟩ (Or.inr (by omega)) (by omega))
  exact key _ a a ha (Or.inl ⟨rfl, hne⟩) rfl

/-- A network meeting `GridNet`: every satellite lists itself and its neighbours found by search. -/
def exampleNet (n s : Nat) (t : Nat × Nat) (src at_ : Nat × Nat) : Env where
  nPlanes := n
  planeSize := s
  suppression := .new
  nexthops := (((List.range n).flatMap (fun p => (List.range s).map (fun i => (p, i)))).filter
      (fun b => decide (TorusAdj n s at_ b))).map (fun b => ⟨b.1 * s + b.2, .isl at_ b true⟩) ++ [⟨n * s, .other at_⟩]
  tag := some t
  ingress := .other at_
  this := some at_
  eligible := fun h => decide (leadsTo h ≠ some src)
  unused := fun _ => false
  lastRenewed := fun _ => 0

/-- `GridNet` is satisfiable for every size and tag. -/
theorem exampleNet_gridNet (n s : Nat) (t : Nat × Nat) : GridNet n s t (exampleNet n s t) where
  planes _ _ := rfl
  size _ _ := rfl
  unsup _ _ := by simp [exampleNet]
  tagged _ _ := rfl
  ingress _ _ := by simp [exampleNet]
  this _ _ := rfl
  fibSound f a h hh := by
    simp only [exampleNet, List.mem_append, List.mem_map, List.mem_filter, decide_eq_true_eq, List.mem_singleton] at hh
    rcases hh with ⟨b, ⟨-, hb⟩, rfl⟩ | rfl
    · exact ⟨b, rfl, Or.inr hb⟩
    · exact ⟨a, rfl, Or.inl rfl⟩
  fibComplete f a b hb := by
    rcases hb with rfl | hb
    · exact ⟨⟨n * s, .other b⟩, by simp [exampleNet], rfl⟩
    · refine ⟨⟨b.1 * s + b.2, .isl a b true⟩, ?_, rfl⟩
      simp only [exampleNet, List.mem_append, List.mem_map, List.mem_filter, decide_eq_true_eq, List.mem_singleton]
      refine Or.inl ⟨b, ⟨?_, hb⟩, rfl⟩
      simp only [List.mem_flatMap, List.mem_map, List.mem_range]
      have hin : b.1 < n ∧ b.2 < s := by
        obtain ⟨h1, h2, ⟨h3, h4⟩ | ⟨h3, h4⟩⟩ := hb
        · exact ⟨by omega, h4.2.1⟩
        · exact ⟨h4.2.1, by omega⟩
      exact ⟨b.1, hin.1, b.2, hin.2, rfl⟩
  eligible f a h _ hl := by simp [exampleNet, hl]

/-! ## C15 -/

/-- The tag names no satellite of the constellation. -/
def OutOfRange (n s : Nat) (t : Nat × Nat) : Prop := n ≤ t.1 ∨ s ≤ t.2

/-- The claim of C15: at a correctly configured satellite an Interest with a tag outside the constellation is refused. -/
def C15_claim : Prop :=
  ∀ (n s : Nat) (t : Nat × Nat) (net : Nat × Nat → Nat × Nat → Env) (f a : Nat × Nat), GridNet n s t net → a.1 < n ∧ a.2 < s →
    OutOfRange n s t → afterReceiveInterest (net f a) = .ok [.sendNackNoRoute, .rejectPending]

/-- What holds: from a satellite of a constellation with at least two planes and two positions, an out-of-range tag never selects the ground;
the direction choice always names an existing neighbour. -/
theorem C15_never_to_ground_partial {n s : Nat} {t a : Nat × Nat} (hn : 2 ≤ n) (hs : 2 ≤ s) (ha : a.1 < n ∧ a.2 < s)
    (ht : OutOfRange n s t) : ∃ b, hop n s t a = some b ∧ TorusAdj n s a b := by
  obtain ⟨t1, t2⟩ := t
  obtain ⟨a1, a2⟩ := a
  simp only [OutOfRange] at ht ha
  unfold hop
  have hnext : ∀ m x : Nat, 2 ≤ m → x < m → RingNbr m x (if x + 1 = m then 0 else x + 1) := fun m x hm hx =>
    ringNbr_next (t := if x = 0 then 1 else 0) hx (by split <;> omega) (by split <;> omega)
  have hprev : ∀ m x : Nat, 2 ≤ m → x < m → RingNbr m x (if x = 0 then m - 1 else x - 1) := fun m x hm hx =>
    ringNbr_prev (t := if x = 0 then 1 else 0) hx (by split <;> omega) (by split <;> omega)
  rcases getTarget_cases n s (t1, t2) (a1, a2) with ⟨h, h1, h2⟩ | ⟨h, h1, h2⟩ | ⟨h, h1, h2⟩ | ⟨h, h2⟩ | ⟨h, h2⟩ <;>
    simp only at h <;> rw [h] <;> simp only [neighbour]
  · simp only at h1 h2; omega
  · exact ⟨_, rfl, ha.1, ha.2, Or.inl ⟨rfl, hnext _ _ hs ha.2⟩⟩
  · exact ⟨_, rfl, ha.1, ha.2, Or.inl ⟨rfl, hprev _ _ hs ha.2⟩⟩
  · exact ⟨_, rfl, ha.1, ha.2, Or.inr ⟨rfl, hnext _ _ hn ha.1⟩⟩
  · exact ⟨_, rfl, ha.1, ha.2, Or.inr ⟨rfl, hprev _ _ hn ha.1⟩⟩

/-- The direction choice never stops for an out-of-range tag: after any number of hops the Interest is still travelling. -/
theorem C15_choice_never_stops {n s : Nat} {t : Nat × Nat} (hn : 2 ≤ n) (hs : 2 ≤ s) (ht : OutOfRange n s t) (fuel : Nat)
    (a : Nat × Nat) (ha : a.1 < n ∧ a.2 < s) :
    (route n s t fuel a).2 = false ∧ (route n s t fuel a).1.length = fuel ∧
    (a :: (route n s t fuel a).1).IsChain (TorusAdj n s) := by
  induction fuel generalizing a with
  | zero =>
    obtain ⟨b, hb, -⟩ := C15_never_to_ground_partial hn hs ha ht
    unfold route; simp [hb]
  | succ fuel ih =>
    obtain ⟨b, hb, hadj⟩ := C15_never_to_ground_partial hn hs ha ht
    have hbr : b.1 < n ∧ b.2 < s := by
      obtain ⟨h1, h2, ⟨h3, h4⟩ | ⟨h3, h4⟩⟩ := hadj
      · exact ⟨by omega, h4.2.1⟩
      · exact ⟨h4.2.1, by omega⟩
    obtain ⟨i1, i2, i3⟩ := ih b hbr
    have hr : route n s t (fuel + 1) a = (b :: (route n s t fuel b).1, (route n s t fuel b).2) := by
      conv_lhs => unfold route
      simp [hb]
    rw [hr]
    exact ⟨i1, by simp [i2], List.isChain_cons_cons.mpr ⟨hadj, i3⟩⟩

/-- Tags far outside (plane at least `n + n / 2`, three planes or more): at every satellite the *strategy itself* forwards the Interest one
plane back, whether it came from the ground or from the following plane, as long as the face back to the previous satellite is the only ineligible one - so it circulates round the
ring and the strategy never refuses it (only NFD's loop detection, outside this repository, ends the journey). -/
theorem C15_circulates {n s : Nat} {t : Nat × Nat} {net : Nat × Nat → Nat × Nat → Env} (g : GridNet n s t net) (hn : 3 ≤ n)
    (ht : n + n / 2 ≤ t.1) (a f : Nat × Nat) (ha : a.1 < n ∧ a.2 < s)
    (hf : f = a ∨ f = (if a.1 + 1 = n then 0 else a.1 + 1, a.2)) :
    ∃ h ∈ (net f a).nexthops, leadsTo h = some (if a.1 = 0 then n - 1 else a.1 - 1, a.2) ∧
      afterReceiveInterest (net f a) = .ok [.sendInterest h.face] := by
  have htg : getTarget n s t.1 t.2 a.1 a.2 = .previousPlane := by
    rcases getTarget_cases n s t a with ⟨h, h1, h2⟩ | ⟨h, h1, h2⟩ | ⟨h, h1, h2⟩ | ⟨h, h2⟩ | ⟨h, h2⟩
    · omega
    · omega
    · omega
    · omega
    · exact h
  obtain ⟨c1, -⟩ := C16_tagged (g.unsup f a) (g.tagged f a) (g.ingress f a) (g.this f a)
    (by rw [g.planes, g.size]; exact ha) (by
      intro h hh _ hk
      obtain ⟨b, hb, -⟩ := g.fibSound f a h hh
      simp [leadsTo, hk] at hb)
  have hadj : TorusAdj n s a (if a.1 = 0 then n - 1 else a.1 - 1, a.2) :=
    ⟨ha.1, ha.2, Or.inr ⟨rfl, ringNbr_prev (t := if a.1 = 0 then 1 else 0) ha.1 (by split <;> omega) (by split <;> omega)⟩⟩
  obtain ⟨h, hh, hl⟩ := g.fibComplete f a _ (Or.inr hadj)
  have hel : (net f a).eligible h = true := by
    apply g.eligible f a h hh
    rw [hl]
    intro he
    simp only [Option.some.injEq] at he
    obtain ⟨f1, f2⟩ := f
    obtain ⟨a1, a2⟩ := a
    simp only [Prod.mk.injEq] at he hf
    split at he <;> split at hf <;> omega
  simp only [g.planes, g.size, htg] at c1
  cases hfnd : (net f a).nexthops.find? (fun h => (net f a).eligible h && fits n s a .previousPlane h) with
  | none =>
    rw [List.find?_eq_none] at hfnd
    exact absurd (by simp [hel, fits, hl, neighbour]) (hfnd h hh)
  | some x =>
    have hx := List.find?_some hfnd
    have hxm := List.mem_of_find?_eq_some hfnd
    refine ⟨x, hxm, ?_, c1 x hfnd⟩
    obtain ⟨b, hb, hb'⟩ := g.fibSound f a x hxm
    simp only [Bool.and_eq_true, fits, hb, neighbour, beq_iff_eq] at hx
    rw [hb]
    obtain ⟨b1, b2⟩ := b
    obtain ⟨a1, a2⟩ := a
    simp only [TorusAdj, RingNbr, Prod.mk.injEq, Option.some.injEq] at *
    refine ⟨hx.2, ?_⟩
    have := hx.2
    split at this <;> omega

/-- The claim of C15 is false. -/
theorem C15_claim_false : ¬ C15_claim := by
  intro h
  have h1 := h 3 2 (4, 0) (exampleNet 3 2 (4, 0)) (0, 0) (0, 0) (exampleNet_gridNet 3 2 (4, 0)) (by decide) (by unfold OutOfRange; decide)
  obtain ⟨x, -, -, h2⟩ := C15_circulates (exampleNet_gridNet 3 2 (4, 0)) (by decide) (by decide) (0, 0) (0, 0) (by decide) (Or.inl rfl)
  rw [h1] at h2
  simp at h2

/-- With a single plane the Interest with an out-of-range plane can even be handed to the ground of the wrong satellite. -/
theorem C15_single_plane_misroute :
    afterReceiveInterest { exampleNet 1 3 (7, 2) (0, 1) (0, 0) with
      nexthops := [⟨3, .other (0, 0)⟩, ⟨1, .isl (0, 0) (0, 1) true⟩, ⟨2, .isl (0, 0) (0, 2) true⟩] } = .ok [.sendInterest 3] := by
  decide

example : OutOfRange 6 11 (6, 3) ∧ OutOfRange 6 11 (2, 11) ∧ (route 6 11 (6, 3) 4 (4, 0)).1 = [(5, 0), (0, 0), (5, 0), (0, 0)] := by
  unfold OutOfRange; decide

/-! ### Non-vacuity of C16 -/

/-- Example environment used below: satellite (0, 1) of a 6 x 11 constellation, Interest from the ground, tag (5, 10). -/
def exampleEnv : Env where
  nPlanes := 6
  planeSize := 11
  suppression := .new
  nexthops := [⟨1, .other (0, 1)⟩, ⟨2, .isl (0, 1) (1, 1) true⟩, ⟨3, .isl (5, 1) (0, 1) false⟩]
  tag := some (5, 10)
  ingress := .other (0, 1)
  this := some (0, 1)
  eligible := fun h => h.face != 1
  unused := fun h => h.face == 2
  lastRenewed := fun h => h.face

example : afterReceiveInterest exampleEnv = .ok [.sendInterest 3] := by decide
example : ∀ h ∈ exampleEnv.nexthops, ∃ a, leadsTo h = some a ∧ (a = (0, 1) ∨ TorusAdj 6 11 (0, 1) a) := by
  intro h hh
  simp only [exampleEnv, List.mem_cons, List.not_mem_nil, or_false] at hh
  rcases hh with rfl | rfl | rfl
  · exact ⟨(0, 1), rfl, Or.inl rfl⟩
  · exact ⟨(1, 1), rfl, Or.inr (by decide)⟩
  · exact ⟨(5, 1), rfl, Or.inr (by decide)⟩
example : ∀ h ∈ exampleEnv.nexthops, exampleEnv.unused h = true → exampleEnv.eligible h = true := by decide

end Icarus
