import Verif.Model.Traffic
import Mathlib.Tactic.Linarith
import Mathlib.Tactic.Ring
import Mathlib.Tactic.LinearCombination
import Mathlib.Tactic.Positivity
import Mathlib.Tactic.FieldSimp
import Mathlib.Tactic.IntervalCases

/-!
# LoRa and Poisson traffic (C52, C53)

Specification: the LoRa time on air (Semtech AN1200.13: explicit header, CRC on, low data rate optimisation for spreading factors 11 and 12).
-/

set_option autoImplicit false

namespace Icarus
namespace Traffic

/-- Symbols of a LoRa frame after the preamble. -/
def frameSymbols (sf cr payload : Nat) : Nat :=
  8 + cr * ⌈((max 0 (8 * payload - 4 * sf + 44 : ℤ) : ℤ) : ℚ) / (4 * (sf - 2 * (if 11 ≤ sf then 1 else 0)))⌉₊

/-- Duration of a symbol in seconds; the bandwidth is in kHz. -/
def symbolTime (sf bw : Nat) : ℚ := 2 ^ sf / (1000 * bw)

/-- Time on air in seconds. -/
def timeOnAir (sf cr bw preamble payload : Nat) : ℚ := (preamble + 17 / 4 + frameSymbols sf cr payload) * symbolTime sf bw

/-- Nominal LoRa bit rate: `sf` bits per symbol, four in `cr` of them information. -/
def bitRate (sf cr bw : Nat) : ℚ := sf * (4 / cr) / symbolTime sf bw

/-- Parameters allowed by the documentation, as far as `uint8_t` can hold them. -/
structure Valid (sf cr bw preamble : Nat) : Prop where
  sf : 7 ≤ sf ∧ sf ≤ 12
  cr : 5 ≤ cr ∧ cr ≤ 8
  bw : 8 ≤ bw ∧ bw ≤ 255
  preamble : 6 ≤ preamble ∧ preamble ≤ 65532

theorem u8_eq {n : Nat} (h : n < 256) : u8 n = n := Nat.mod_eq_of_lt h

theorem u32_eq {n : Int} (h0 : 0 ≤ n) (h : n < 2 ^ 32) : u32 n = n.toNat := by
  unfold u32; rw [Int.emod_eq_of_lt h0 h]

/-- The number of symbols as computed by the code from its `symbols`. -/
def codeSymbols (sf cr symbols : Nat) : ℤ := 8 + cr * ⌈(symbols : ℚ) / 4 / ((sf : ℚ) - 2 * ((if sf ≤ 10 then 0 else 1 : ℤ) : ℚ))⌉

theorem den_pos {sf : Nat} (h : 7 ≤ sf) : (5 : ℚ) ≤ (sf : ℚ) - 2 * ((if sf ≤ 10 then 0 else 1 : ℤ) : ℚ) := by
  have h1 : (7 : ℚ) ≤ sf := by exact_mod_cast h
  split <;> push_cast <;> linarith

theorem codeSymbols_bounds {sf cr symbols : Nat} (hsf : 7 ≤ sf) (hcr : cr ≤ 8) (hs : symbols < 2 ^ 32) :
    8 ≤ codeSymbols sf cr symbols ∧ codeSymbols sf cr symbols < 2 ^ 31 := by
  have hd := den_pos hsf
  set d := (sf : ℚ) - 2 * ((if sf ≤ 10 then 0 else 1 : ℤ) : ℚ) with hdd
  have h0 : (0 : ℚ) ≤ (symbols : ℚ) / 4 / d := by positivity
  have h1 : (symbols : ℚ) / 4 / d ≤ (214748365 : ℤ) := by
    rw [div_div, div_le_iff₀ (by positivity)]
    have : (symbols : ℚ) ≤ 2 ^ 32 := by exact_mod_cast hs.le
    push_cast
    nlinarith
  have h2 : 0 ≤ ⌈(symbols : ℚ) / 4 / d⌉ := Int.ceil_nonneg h0
  have h3 : ⌈(symbols : ℚ) / 4 / d⌉ ≤ 214748365 := Int.ceil_le.mpr h1
  unfold codeSymbols
  rw [← hdd]
  have h4 : (cr : ℤ) ≤ 8 := by exact_mod_cast hcr
  constructor
  · have : (0 : ℤ) ≤ cr * ⌈(symbols : ℚ) / 4 / d⌉ := by positivity
    omega
  · nlinarith

/-- Bytes of a frame before rounding. -/
def rawSize (sf cr preamble : Nat) (phy : ℤ) : ℚ := sf * (preamble + phy + 17 / 4) / cr / 2

/-- What the constructor computes. -/
theorem lora_eq {sf cr bw preamble : Nat} (hv : Valid sf cr bw preamble) (debug : Bool) (rate header payload frames : Nat) :
    lora debug sf cr bw rate preamble header payload frames =
      (doubleToUnsigned 32 (⌊rawSize sf cr preamble (codeSymbols sf cr (u32 (44 + u32 (8 * payload) - 4 * sf))) + 1 / 2⌋ - header) >>= fun size =>
        if u32 (size + header) = 0 then .ub .divByZero else
        .ok ⟨size, u64 (rate * size) / u32 (size + header), u64 (size * frames)⟩) := by
  obtain ⟨⟨s1, s2⟩, ⟨c1, c2⟩, ⟨b1, b2⟩, ⟨p1, p2⟩⟩ := hv
  unfold lora
  simp only [u8_eq (show sf < 256 by omega), u8_eq (show cr < 256 by omega), u8_eq (show bw < 256 by omega)]
  rw [decide_eq_true (show 7 ≤ sf ∧ sf ≤ 12 from ⟨s1, s2⟩), decide_eq_true (show 5 ≤ cr ∧ cr ≤ 8 from ⟨c1, c2⟩),
    decide_eq_true (show 8 ≤ bw ∧ bw ≤ 500 by omega), decide_eq_true (show 6 ≤ preamble ∧ preamble ≤ 65532 from ⟨p1, p2⟩)]
  simp only [Outcome.nsAssert_true, Outcome.bind_ok]
  have hb : (bw : ℚ) ≠ 0 := by exact_mod_cast (by omega : bw ≠ 0)
  have hc : (cr : ℚ) ≠ 0 := by exact_mod_cast (by omega : cr ≠ 0)
  have hd := den_pos s1
  have hd0 : (sf : ℚ) - 2 * ((if sf ≤ 10 then 0 else 1 : ℤ) : ℚ) ≠ 0 := by linarith
  have hs : u32 (44 + u32 (8 * payload) - 4 * sf) < 2 ^ 32 := by
    unfold u32
    have := Int.emod_lt_of_pos (44 + ((((8 * payload : ℤ)) % 2 ^ 32).toNat : ℤ) - 4 * sf) (show (0 : ℤ) < 2 ^ 32 by norm_num)
    have h2 := Int.emod_nonneg (44 + ((((8 * payload : ℤ)) % 2 ^ 32).toNat : ℤ) - 4 * sf) (show (2 ^ 32 : ℤ) ≠ 0 by norm_num)
    omega
  set symbols := u32 (44 + u32 (8 * payload) - 4 * sf) with hsym
  have hcs := codeSymbols_bounds (cr := cr) s1 c2 hs
  have e1 : cdivQ (2 ^ sf) bw = .ok (2 ^ sf / bw) := by unfold cdivQ; rw [if_neg hb]
  have e2 : cdivQ ((symbols : ℚ) / 4) ((sf : ℚ) - 2 * ((if sf ≤ 10 then 0 else 1 : ℤ) : ℚ)) =
      .ok ((symbols : ℚ) / 4 / ((sf : ℚ) - 2 * ((if sf ≤ 10 then 0 else 1 : ℤ) : ℚ))) := by unfold cdivQ; rw [if_neg hd0]
  have e3 : doubleToUnsigned 32 (8 + cr * (⌈(symbols : ℚ) / 4 / ((sf : ℚ) - 2 * ((if sf ≤ 10 then 0 else 1 : ℤ) : ℚ))⌉ : ℚ)) =
      .ok (codeSymbols sf cr symbols).toNat := by
    have hq : (8 + cr * (⌈(symbols : ℚ) / 4 / ((sf : ℚ) - 2 * ((if sf ≤ 10 then 0 else 1 : ℤ) : ℚ))⌉ : ℚ)) = (codeSymbols sf cr symbols : ℚ) := by
      unfold codeSymbols; push_cast; ring
    rw [hq]
    unfold doubleToUnsigned
    rw [if_pos]
    · congr 1
    · constructor
      · exact_mod_cast (by omega : (-1 : ℤ) < codeSymbols sf cr symbols)
      · exact_mod_cast (by omega : codeSymbols sf cr symbols < 2 ^ 32)
  rw [e1, Outcome.bind_ok, e2, Outcome.bind_ok, e3, Outcome.bind_ok]
  have hu : u32 ((preamble : ℤ) + ((codeSymbols sf cr symbols).toNat : ℤ)) = ((preamble : ℤ) + codeSymbols sf cr symbols).toNat := by
    rw [u32_eq (by omega) (by omega)]
    congr 1; omega
  have hu2 : ((((preamble : ℤ) + codeSymbols sf cr symbols).toNat : ℕ) : ℚ) = (preamble : ℚ) + (codeSymbols sf cr symbols : ℚ) := by
    have : ((((preamble : ℤ) + codeSymbols sf cr symbols).toNat : ℕ) : ℤ) = (preamble : ℤ) + codeSymbols sf cr symbols := by omega
    exact_mod_cast this
  have ht : (2 : ℚ) ^ sf / bw / 1000 ≠ 0 := by positivity
  rw [hu, hu2]
  have e4 : ∀ x, cdivQ x cr = .ok (x / cr) := by intro x; unfold cdivQ; rw [if_neg hc]
  have e5 : ∀ x, cdivQ x ((2 : ℚ) ^ sf / bw / 1000) = .ok (x / ((2 : ℚ) ^ sf / bw / 1000)) := by
    intro x; unfold cdivQ; rw [if_neg ht]
  rw [e4, Outcome.bind_ok, e5, Outcome.bind_ok]
  have hraw : sf * ((2 : ℚ) ^ sf / bw / 1000 * ((preamble : ℚ) + (codeSymbols sf cr symbols : ℚ) + 4.25)) / cr / ((2 : ℚ) ^ sf / bw / 1000) / 2 =
      rawSize sf cr preamble (codeSymbols sf cr symbols) := by
    unfold rawSize
    have : (4.25 : ℚ) = 17 / 4 := by norm_num
    rw [this]
    field_simp
  rw [hraw]

/-- When the unsigned arithmetic does not wrap, the code's number of symbols is that of the LoRa frame. -/
theorem codeSymbols_spec {sf cr payload : Nat} (hsf : 7 ≤ sf ∧ sf ≤ 12) (hlow : 4 * sf ≤ 44 + 8 * payload) (hhigh : 44 + 8 * payload < 2 ^ 32) :
    codeSymbols sf cr (u32 (44 + u32 (8 * payload) - 4 * sf)) = (frameSymbols sf cr payload : ℤ) := by
  have h1 : u32 (8 * (payload : ℤ)) = 8 * payload := by rw [u32_eq (by omega) (by omega)]; omega
  have h2 : u32 (44 + ((8 * payload : ℕ) : ℤ) - 4 * sf) = 44 + 8 * payload - 4 * sf := by rw [u32_eq (by omega) (by omega)]; omega
  rw [h1, h2]
  unfold codeSymbols frameSymbols
  have h3 : ((44 + 8 * payload - 4 * sf : ℕ) : ℤ) = max 0 (8 * payload - 4 * sf + 44 : ℤ) := by
    rw [max_eq_right (by omega)]; omega
  have h4 : ((44 + 8 * payload - 4 * sf : ℕ) : ℚ) = ((max 0 (8 * payload - 4 * sf + 44 : ℤ) : ℤ) : ℚ) := by
    rw [← h3]; push_cast; rfl
  have h5 : ((if sf ≤ 10 then 0 else 1 : ℤ) : ℚ) = (if 11 ≤ sf then 1 else 0) := by
    by_cases h : sf ≤ 10
    · rw [if_pos h, if_neg (by omega)]; simp
    · rw [if_neg h, if_pos (by omega)]; simp
  rw [h4]
  have hd := den_pos hsf.1
  have h6 : ((max 0 (8 * payload - 4 * sf + 44 : ℤ) : ℤ) : ℚ) / 4 / ((sf : ℚ) - 2 * ((if sf ≤ 10 then 0 else 1 : ℤ) : ℚ)) =
      ((max 0 (8 * payload - 4 * sf + 44 : ℤ) : ℤ) : ℚ) / (4 * ((sf : ℚ) - 2 * (if 11 ≤ sf then 1 else 0))) := by
    rw [div_div, h5]
  rw [h6]
  have h7 : (0 : ℚ) ≤ ((max 0 (8 * payload - 4 * sf + 44 : ℤ) : ℤ) : ℚ) / (4 * ((sf : ℚ) - 2 * (if 11 ≤ sf then 1 else 0))) := by
    rw [h5] at hd
    have : (0 : ℚ) ≤ ((max 0 (8 * payload - 4 * sf + 44 : ℤ) : ℤ) : ℚ) := by exact_mod_cast le_max_left _ _
    apply div_nonneg this
    linarith
  rw [← Int.ceil_toNat]
  have h8 := Int.ceil_nonneg h7
  rw [Nat.cast_add, Nat.cast_mul, Int.toNat_of_nonneg h8]
  rfl

theorem bitRate_pos {sf cr bw preamble : Nat} (hv : Valid sf cr bw preamble) : 0 < bitRate sf cr bw := by
  obtain ⟨⟨s1, s2⟩, ⟨c1, c2⟩, ⟨b1, b2⟩, -⟩ := hv
  have : (0 : ℚ) < sf := by exact_mod_cast (by omega : 0 < sf)
  have : (0 : ℚ) < cr := by exact_mod_cast (by omega : 0 < cr)
  have : (0 : ℚ) < bw := by exact_mod_cast (by omega : 0 < bw)
  unfold bitRate symbolTime
  positivity

/-- Before rounding, the bytes times eight at the bit rate are the time on air. -/
theorem rawSize_eq {sf cr bw preamble : Nat} (hv : Valid sf cr bw preamble) (payload : Nat) :
    rawSize sf cr preamble (frameSymbols sf cr payload) = bitRate sf cr bw * timeOnAir sf cr bw preamble payload / 8 := by
  obtain ⟨⟨s1, s2⟩, ⟨c1, c2⟩, ⟨b1, b2⟩, -⟩ := hv
  have h1 : (sf : ℚ) ≠ 0 := by exact_mod_cast (by omega : sf ≠ 0)
  have h2 : (cr : ℚ) ≠ 0 := by exact_mod_cast (by omega : cr ≠ 0)
  have h3 : (bw : ℚ) ≠ 0 := by exact_mod_cast (by omega : bw ≠ 0)
  unfold rawSize bitRate timeOnAir symbolTime
  push_cast
  field_simp
  ring

/-- Nearest integer, halves up. -/
theorem floor_half (x : ℚ) : |(⌊x + 1 / 2⌋ : ℚ) - x| ≤ 1 / 2 := by
  have h1 := Int.floor_le (x + 1 / 2)
  have h2 := Int.lt_floor_add_one (x + 1 / 2)
  rw [abs_le]; constructor <;> linarith

theorem codeSymbols_nonneg_lt (sf cr payload : Nat) (hsf : 7 ≤ sf) (hcr : cr ≤ 8) :
    8 ≤ codeSymbols sf cr (u32 (44 + u32 (8 * payload) - 4 * sf)) ∧
      codeSymbols sf cr (u32 (44 + u32 (8 * payload) - 4 * sf)) < 2 ^ 31 := by
  apply codeSymbols_bounds hsf hcr
  unfold u32
  have := Int.emod_lt_of_pos (44 + ((((8 * payload : ℤ)) % 2 ^ 32).toNat : ℤ) - 4 * sf) (show (0 : ℤ) < 2 ^ 32 by norm_num)
  have h2 := Int.emod_nonneg (44 + ((((8 * payload : ℤ)) % 2 ^ 32).toNat : ℤ) - 4 * sf) (show (2 ^ 32 : ℤ) ≠ 0 by norm_num)
  omega

theorem rawSize_bounds {sf cr bw preamble : Nat} (hv : Valid sf cr bw preamble) {phy : ℤ} (h1 : 8 ≤ phy) (h2 : phy < 2 ^ 31) :
    7 ≤ rawSize sf cr preamble phy ∧ rawSize sf cr preamble phy < 2 ^ 32 - 70000 := by
  obtain ⟨⟨s1, s2⟩, ⟨c1, c2⟩, -, ⟨p1, p2⟩⟩ := hv
  have s1' : (7 : ℚ) ≤ sf := by exact_mod_cast s1
  have s2' : (sf : ℚ) ≤ 12 := by exact_mod_cast s2
  have c1' : (5 : ℚ) ≤ cr := by exact_mod_cast c1
  have c2' : (cr : ℚ) ≤ 8 := by exact_mod_cast c2
  have p1' : (6 : ℚ) ≤ preamble := by exact_mod_cast p1
  have p2' : (preamble : ℚ) ≤ 65532 := by exact_mod_cast p2
  have f1 : (8 : ℚ) ≤ phy := by exact_mod_cast h1
  have f2 : (phy : ℚ) ≤ 2 ^ 31 := by exact_mod_cast h2.le
  unfold rawSize
  rw [div_div]
  have hc : (0 : ℚ) < cr * 2 := by linarith
  constructor
  · rw [le_div_iff₀ hc]
    nlinarith
  · rw [div_lt_iff₀ hc]
    nlinarith

/-- The constructor when the rounded size `N` of the frame holds the header. -/
theorem lora_of_size {sf cr bw preamble : Nat} (hv : Valid sf cr bw preamble) (debug : Bool) (rate header payload frames : Nat) (N : ℤ)
    (hN : ⌊rawSize sf cr preamble (codeSymbols sf cr (u32 (44 + u32 (8 * payload) - 4 * sf))) + 1 / 2⌋ = N)
    (h1 : header ≤ N) (h2 : 0 < N) (h3 : N < 2 ^ 32) :
    ∃ l, lora debug sf cr bw rate preamble header payload frames = .ok l ∧ (l.payload : ℤ) + header = N := by
  rw [lora_eq hv, hN]
  have hconv : doubleToUnsigned 32 ((N : ℚ) - header) = .ok (N - header).toNat := by
    have : ((N : ℚ) - header) = ((N - header : ℤ) : ℚ) := by push_cast; ring
    rw [this]
    unfold doubleToUnsigned
    rw [if_pos]
    · congr 1
    · constructor
      · exact_mod_cast (by omega : (-1 : ℤ) < N - header)
      · exact_mod_cast (by omega : (N - header : ℤ) < 2 ^ 32)
  rw [hconv, Outcome.bind_ok]
  have hu : u32 (((N - header).toNat : ℤ) + header) = N.toNat := by
    rw [u32_eq (by omega) (by omega)]; omega
  rw [hu, if_neg (by omega)]
  exact ⟨_, rfl, by simp only; omega⟩

/-! ## C52 -/

/-- Sending payload and header at the nominal bit rate takes the LoRa time on air, up to half a byte. -/
theorem C52_frame {sf cr bw preamble : Nat} (hv : Valid sf cr bw preamble) (debug : Bool) (rate header payload frames : Nat)
    (hlow : 4 * sf ≤ 44 + 8 * payload) (hhigh : 44 + 8 * payload < 2 ^ 32)
    (hheader : header ≤ bitRate sf cr bw * timeOnAir sf cr bw preamble payload / 8) :
    ∃ l, lora debug sf cr bw rate preamble header payload frames = .ok l ∧
      |8 * ((l.payload : ℚ) + header) / bitRate sf cr bw - timeOnAir sf cr bw preamble payload| ≤ 4 / bitRate sf cr bw := by
  obtain ⟨g1, g2⟩ := codeSymbols_nonneg_lt sf cr payload hv.sf.1 hv.cr.2
  rw [codeSymbols_spec hv.sf hlow hhigh] at g1 g2
  obtain ⟨k1, k2⟩ := rawSize_bounds hv g1 g2
  have hraw := rawSize_eq hv payload
  have hN := lora_of_size hv debug rate header payload frames _ rfl
  rw [codeSymbols_spec hv.sf hlow hhigh] at hN
  set x := rawSize sf cr preamble (frameSymbols sf cr payload) with hx
  have hf := floor_half x
  rw [abs_le] at hf
  have hge : (header : ℤ) ≤ ⌊x + 1 / 2⌋ := by
    rw [Int.le_floor]
    push_cast
    rw [hraw]
    linarith
  have hlt : (⌊x + 1 / 2⌋ : ℚ) < 2 ^ 32 - 60000 := by linarith [hf.2]
  have hlt' : ⌊x + 1 / 2⌋ < 2 ^ 32 - 60000 := by exact_mod_cast hlt
  have hpos : 7 ≤ ⌊x + 1 / 2⌋ := by
    rw [Int.le_floor]; push_cast; linarith
  obtain ⟨l, hl, hsum'⟩ := hN hge (by omega) (by omega)
  refine ⟨l, hl, ?_⟩
  have hsum : ((l.payload : ℚ) + header) = (⌊x + 1 / 2⌋ : ℚ) := by exact_mod_cast hsum'
  have hR := bitRate_pos hv
  rw [hsum]
  have htoa : timeOnAir sf cr bw preamble payload = 8 * x / bitRate sf cr bw := by rw [hraw]; field_simp
  rw [htoa, ← sub_div, abs_div, abs_of_pos hR]
  apply div_le_div_of_nonneg_right _ hR.le
  rw [abs_le]
  constructor <;> linarith [hf.1, hf.2]

/-- The payload sizes, rates and byte budget in any run of the constructor: rate times payload share, rounded down; frames times payload. -/
theorem C52_rate_and_budget {sf cr bw preamble : Nat} (hv : Valid sf cr bw preamble) (debug : Bool) (rate header payload frames : Nat) (l : Lora)
    (hh : header < 65536) (h : lora debug sf cr bw rate preamble header payload frames = .ok l) :
    (rate * l.payload < 2 ^ 64 → l.rate * (l.payload + header) ≤ rate * l.payload ∧ rate * l.payload < (l.rate + 1) * (l.payload + header)) ∧
    (l.payload * frames < 2 ^ 64 → l.maxBytes = l.payload * frames) := by
  rw [lora_eq hv] at h
  obtain ⟨g1, g2⟩ := codeSymbols_nonneg_lt sf cr payload hv.sf.1 hv.cr.2
  obtain ⟨k1, k2⟩ := rawSize_bounds hv g1 g2
  set x := rawSize sf cr preamble (codeSymbols sf cr (u32 (44 + u32 (8 * payload) - 4 * sf))) with hx
  have hf := floor_half x
  rw [abs_le] at hf
  have hlt : (⌊x + 1 / 2⌋ : ℚ) < 2 ^ 32 - 60000 := by linarith [hf.2]
  have hlt' : ⌊x + 1 / 2⌋ < 2 ^ 32 - 60000 := by exact_mod_cast hlt
  rw [Outcome.bind_eq_ok] at h
  obtain ⟨size, h1, h2⟩ := h
  have hsize : (size : ℤ) ≤ max 0 (⌊x + 1 / 2⌋ - header) := by
    unfold doubleToUnsigned at h1
    split at h1
    · simp only [Outcome.ok.injEq] at h1
      have : ((⌊x + 1 / 2⌋ : ℚ) - header) = ((⌊x + 1 / 2⌋ - header : ℤ) : ℚ) := by push_cast; ring
      rw [this, ← Int.floor_toNat, Int.floor_intCast] at h1
      omega
    · simp at h1
  have hu : u32 ((size : ℤ) + header) = size + header := by
    rw [u32_eq (by omega) (by omega)]; omega
  rw [hu] at h2
  split at h2
  · simp at h2
  · rename_i hne
    simp only [Outcome.ok.injEq] at h2
    subst h2
    simp only
    constructor
    · intro hr
      rw [show u64 (rate * size) = rate * size from Nat.mod_eq_of_lt hr]
      have hpos : 0 < size + header := by omega
      constructor
      · exact Nat.div_mul_le_self _ _
      · have := Nat.lt_div_mul_add hpos (a := rate * size)
        nlinarith
    · intro hr
      exact Nat.mod_eq_of_lt hr

/-- The link rate is the nominal bit rate rounded down to whole bits per second. -/
theorem C52_link_rate {sf cr bw preamble : Nat} (hv : Valid sf cr bw preamble) :
    loraLinkRate sf cr bw = .ok ⌊bitRate sf cr bw⌋₊ ∧ 11 ≤ ⌊bitRate sf cr bw⌋₊ := by
  have hR := bitRate_pos hv
  obtain ⟨⟨s1, s2⟩, ⟨c1, c2⟩, ⟨b1, b2⟩, -⟩ := hv
  have s1' : (7 : ℚ) ≤ sf := by exact_mod_cast s1
  have s2' : (sf : ℚ) ≤ 12 := by exact_mod_cast s2
  have c1' : (5 : ℚ) ≤ cr := by exact_mod_cast c1
  have c2' : (cr : ℚ) ≤ 8 := by exact_mod_cast c2
  have b1' : (8 : ℚ) ≤ bw := by exact_mod_cast b1
  have b2' : (bw : ℚ) ≤ 255 := by exact_mod_cast b2
  have hpow : (2 : ℚ) ^ sf ≠ 0 := by positivity
  have e : ((sf * bw * 4000 : ℕ) : ℚ) / 2 ^ sf / cr = bitRate sf cr bw := by
    unfold bitRate symbolTime
    push_cast
    field_simp
    ring
  constructor
  · unfold loraLinkRate
    simp only [u8_eq (show sf < 256 by omega), u8_eq (show cr < 256 by omega), u8_eq (show bw < 256 by omega)]
    unfold cdivQ
    rw [if_neg (by linarith : (cr : ℚ) ≠ 0), Outcome.bind_ok, e]
    unfold doubleToUnsigned
    rw [if_pos]
    refine ⟨by linarith, ?_⟩
    rw [← e, div_div, div_lt_iff₀ (by positivity)]
    push_cast
    have h1 : (1 : ℚ) ≤ 2 ^ sf := one_le_pow₀ (by norm_num)
    have h2 : (5 : ℚ) ≤ 2 ^ sf * cr := by nlinarith
    have h3 : (sf : ℚ) * bw * 4000 ≤ 12 * 255 * 4000 := by
      apply mul_le_mul_of_nonneg_right _ (by norm_num)
      exact mul_le_mul s2' b2' (by linarith) (by norm_num)
    linarith
  · rw [Nat.le_floor_iff hR.le, ← e, div_div, le_div_iff₀ (by positivity)]
    push_cast
    have h3 : (2 : ℚ) ^ sf * cr * 11 ≤ sf * 8 * 4000 := by
      have : (2 : ℚ) ^ sf * 88 ≤ sf * 32000 := by
        interval_cases sf <;> norm_num
      nlinarith [pow_pos (show (0 : ℚ) < 2 by norm_num) sf]
    nlinarith

/-- With the (truncated) link rate a frame takes at least the time on air less half a byte, and at most the time on air and half a byte
lengthened by the relative error of the truncation, which is at most one bit per second. -/
theorem C52_time {sf cr bw preamble : Nat} (hv : Valid sf cr bw preamble) (debug : Bool) (rate header payload frames : Nat)
    (hlow : 4 * sf ≤ 44 + 8 * payload) (hhigh : 44 + 8 * payload < 2 ^ 32)
    (hheader : header ≤ bitRate sf cr bw * timeOnAir sf cr bw preamble payload / 8) :
    ∃ l R, lora debug sf cr bw rate preamble header payload frames = .ok l ∧ loraLinkRate sf cr bw = .ok R ∧
      timeOnAir sf cr bw preamble payload - 4 / bitRate sf cr bw ≤ 8 * ((l.payload : ℚ) + header) / R ∧
      8 * ((l.payload : ℚ) + header) / R ≤ (timeOnAir sf cr bw preamble payload + 4 / bitRate sf cr bw) * (1 + 1 / R) := by
  obtain ⟨l, h1, h2⟩ := C52_frame hv debug rate header payload frames hlow hhigh hheader
  obtain ⟨h3, h4⟩ := C52_link_rate hv
  refine ⟨l, _, h1, h3, ?_⟩
  have hR := bitRate_pos hv
  set E := bitRate sf cr bw
  have hf1 : ((⌊E⌋₊ : ℕ) : ℚ) ≤ E := Nat.floor_le hR.le
  have hf2 : E < ((⌊E⌋₊ : ℕ) : ℚ) + 1 := Nat.lt_floor_add_one E
  set F : ℚ := ((⌊E⌋₊ : ℕ) : ℚ) with hF
  have hF0 : (11 : ℚ) ≤ F := by rw [hF]; exact_mod_cast h4
  rw [abs_le] at h2
  set T := timeOnAir sf cr bw preamble payload
  set B := 8 * ((l.payload : ℚ) + header) with hB
  have hB0 : 0 ≤ B := by positivity
  constructor
  · have : B / E ≤ B / F := div_le_div_of_nonneg_left hB0 (by linarith) hf1
    linarith [h2.1]
  · have h5 : B / F ≤ B / E * (1 + 1 / F) := by
      have hF1 : F ≠ 0 := by linarith
      have : B / E * (1 + 1 / F) = B * (F + 1) / (E * F) := by field_simp
      rw [this, div_le_div_iff₀ (by linarith) (by positivity)]
      have : B * (E * F) ≤ B * ((F + 1) * F) := by
        apply mul_le_mul_of_nonneg_left _ hB0
        exact mul_le_mul_of_nonneg_right hf2.le (by linarith)
      nlinarith
    have h6 : B / E * (1 + 1 / F) ≤ (T + 4 / E) * (1 + 1 / F) := by
      apply mul_le_mul_of_nonneg_right (by linarith [h2.2])
      have : 0 < F := by linarith
      positivity
    linarith

theorem symbols_wrap : u32 (44 + u32 (8 * ((0 : ℕ) : ℤ)) - 4 * ((12 : ℕ) : ℤ)) = 4294967292 := by
  unfold u32
  omega

theorem codeSymbols_wrap (cr : Nat) : codeSymbols 12 cr 4294967292 = 8 + cr * 107374183 := by
  unfold codeSymbols
  have h : ⌈((4294967292 : ℕ) : ℚ) / 4 / (((12 : ℕ) : ℚ) - 2 * ((if 12 ≤ 10 then 0 else 1 : ℤ) : ℚ))⌉ = 107374183 := by
    rw [Int.ceil_eq_iff]
    norm_num
  rw [h]

theorem rawSize_wrap {cr bw preamble : Nat} (hv : Valid 12 cr bw preamble) :
    600000001 ≤ rawSize 12 cr preamble (8 + cr * 107374183) ∧ rawSize 12 cr preamble (8 + cr * 107374183) ≤ 2 ^ 31 := by
  obtain ⟨-, ⟨c1, c2⟩, -, ⟨p1, p2⟩⟩ := hv
  have c1' : (5 : ℚ) ≤ cr := by exact_mod_cast c1
  have c2' : (cr : ℚ) ≤ 8 := by exact_mod_cast c2
  have p1' : (6 : ℚ) ≤ preamble := by exact_mod_cast p1
  have p2' : (preamble : ℚ) ≤ 65532 := by exact_mod_cast p2
  unfold rawSize
  push_cast
  rw [div_div]
  constructor
  · rw [le_div_iff₀ (by linarith)]
    nlinarith
  · rw [div_le_iff₀ (by linarith)]
    nlinarith

/-- An empty payload at spreading factor 12 makes the unsigned count of symbols wrap: the frame gets hundreds of megabytes, although the real
one has only the preamble and 8 symbols. -/
theorem C52_wraps {cr bw preamble : Nat} (hv : Valid 12 cr bw preamble) (debug : Bool) (rate header frames : Nat) (hh : header < 65536) :
    frameSymbols 12 cr 0 = 8 ∧
    ∃ l, lora debug 12 cr bw rate preamble header 0 frames = .ok l ∧ 600000000 ≤ (l.payload : ℤ) + header := by
  constructor
  · simp [frameSymbols]
  have hN := lora_of_size hv debug rate header 0 frames _ rfl
  have hb := rawSize_wrap hv
  rw [symbols_wrap, codeSymbols_wrap] at hN
  generalize rawSize 12 cr preamble (8 + cr * 107374183) = x at hN hb
  have hge : (600000000 : ℤ) ≤ ⌊x + 1 / 2⌋ := by rw [Int.le_floor]; push_cast; linarith [hb.1]
  have hle : ⌊x + 1 / 2⌋ ≤ 2 ^ 31 + 1 := by
    have := Int.floor_le (x + 1 / 2)
    have : (⌊x + 1 / 2⌋ : ℚ) ≤ ((2 ^ 31 + 1 : ℤ) : ℚ) := by push_cast; linarith [hb.2]
    exact_mod_cast this
  generalize ⌊x + 1 / 2⌋ = N at hN hge hle
  obtain ⟨l, hl, hsum⟩ := hN (by omega) (by omega) (by omega)
  exact ⟨l, hl, by rw [hsum]; exact hge⟩

/-- When the header alone is at least half a byte longer than the whole frame, a negative number is converted to unsigned. -/
theorem C52_header_too_long {sf cr bw preamble : Nat} (hv : Valid sf cr bw preamble) (debug : Bool) (rate header payload frames : Nat)
    (hlow : 4 * sf ≤ 44 + 8 * payload) (hhigh : 44 + 8 * payload < 2 ^ 32)
    (hheader : bitRate sf cr bw * timeOnAir sf cr bw preamble payload / 8 + 1 / 2 < header) :
    lora debug sf cr bw rate preamble header payload frames = .ub .badConversion := by
  rw [lora_eq hv, codeSymbols_spec hv.sf hlow hhigh, rawSize_eq hv payload]
  set x := bitRate sf cr bw * timeOnAir sf cr bw preamble payload / 8
  have hlt : ⌊x + 1 / 2⌋ < (header : ℤ) := by
    rw [Int.floor_lt]; exact_mod_cast hheader
  have : ¬ (-1 < (⌊x + 1 / 2⌋ : ℚ) - header ∧ (⌊x + 1 / 2⌋ : ℚ) - header < 2 ^ 32) := by
    rintro ⟨h, -⟩
    have h1 : (⌊x + 1 / 2⌋ : ℚ) ≤ ((header : ℤ) - 1 : ℤ) := by exact_mod_cast (by omega : ⌊x + 1 / 2⌋ ≤ (header : ℤ) - 1)
    push_cast at h1
    linarith
  unfold doubleToUnsigned
  rw [if_neg this, Outcome.bind_ub]

/-- A bandwidth of 500 kHz, allowed by the documentation and the assertion, does not fit its type: the link has less than half its rate. -/
theorem C52_bandwidth_500 {sf cr : Nat} (hsf : 7 ≤ sf ∧ sf ≤ 12) (hcr : 5 ≤ cr ∧ cr ≤ 8) :
    ∃ R, loraLinkRate sf cr 500 = .ok R ∧ 2 * (R : ℚ) < bitRate sf cr 500 := by
  have hv : Valid sf cr 244 6 := ⟨hsf, hcr, by omega, by omega⟩
  obtain ⟨h1, h2⟩ := C52_link_rate hv
  refine ⟨⌊bitRate sf cr 244⌋₊, ?_, ?_⟩
  · rw [← h1]
    unfold loraLinkRate
    simp only [show u8 500 = u8 244 from rfl]
  · have h3 := Nat.floor_le (bitRate_pos hv).le
    have h4 : bitRate sf cr 500 = bitRate sf cr 244 * (500 / 244) := by
      unfold bitRate symbolTime
      push_cast
      field_simp
    rw [h4]
    have := bitRate_pos hv
    linarith

/-! ### Non-vacuity -/

example : Valid 10 5 125 8 := by constructor <;> omega

/-- The defaults of the helper: 63 symbols. -/
theorem frameSymbols_default : frameSymbols 10 5 51 = 63 := by
  unfold frameSymbols
  have : ⌈((max 0 (8 * (51 : ℕ) - 4 * (10 : ℕ) + 44 : ℤ) : ℤ) : ℚ) / (4 * ((10 : ℕ) - 2 * (if 11 ≤ 10 then 1 else 0)))⌉₊ = 11 := by
    rw [Nat.ceil_eq_iff (by norm_num)]
    norm_num
  rw [this]

example : ((20 : ℕ) : ℚ) ≤ bitRate 10 5 125 * timeOnAir 10 5 125 8 51 / 8 := by
  unfold timeOnAir
  rw [frameSymbols_default]
  unfold bitRate symbolTime
  norm_num

example : bitRate 12 8 125 * timeOnAir 12 8 125 8 1 / 8 + 1 / 2 < ((60 : ℕ) : ℚ) := by
  have : frameSymbols 12 8 1 = 16 := by
    unfold frameSymbols
    have : ⌈((max 0 (8 * (1 : ℕ) - 4 * (12 : ℕ) + 44 : ℤ) : ℤ) : ℚ) / (4 * ((12 : ℕ) - 2 * (if 11 ≤ 12 then 1 else 0)))⌉₊ = 1 := by
      rw [Nat.ceil_eq_iff (by norm_num)]
      norm_num
    rw [this]
  unfold timeOnAir
  rw [this]
  unfold bitRate symbolTime
  norm_num

/-! ## C53 -/

/-- A cycle is, on average, the time a packet with its header takes at the requested rate: one packet per cycle makes the requested rate. -/
theorem C53_cycle (rate header size : Nat) (hr : 0 < rate) (hs : size + header < 2 ^ 32) :
    ∃ p, poisson rate header size = .ok p ∧ p.packetSize = size ∧
      (p.onTime + p.offMean) * rate = 8 * (size + header) ∧
      (0 < size + header → 8 * (size + header) / (p.onTime + p.offMean) = rate) := by
  have hr' : (rate : ℚ) ≠ 0 := by exact_mod_cast hr.ne'
  have hu : u32 ((size : ℤ) + header) = size + header := by rw [u32_eq (by omega) (by omega)]; omega
  unfold poisson cdivQ
  rw [if_neg hr', hu]
  refine ⟨_, rfl, rfl, ?_, ?_⟩
  · push_cast
    field_simp
    ring
  · intro hpos
    have : (0 : ℚ) < (size : ℚ) + header := by exact_mod_cast hpos
    push_cast
    rw [add_sub_cancel]
    field_simp

/-- The on time is what the source needs to emit exactly one packet. -/
theorem C53_one_packet (rate header size : Nat) (p : Poisson) (h : poisson rate header size = .ok p) :
    p.onTime * p.dataRate = 8 * p.packetSize := by
  unfold poisson cdivQ at h
  split at h
  · simp at h
  · simp only [Outcome.bind_ok, Outcome.ok.injEq] at h
    subst h
    norm_num
    ring

/-- The mean off time is positive exactly when the requested rate is below the maximum rate by the share of the header. -/
theorem C53_off_positive (rate header size : Nat) (hr : 0 < rate) (hs : size + header < 2 ^ 32) (p : Poisson)
    (h : poisson rate header size = .ok p) : 0 < p.offMean ↔ rate * size < p.dataRate * (size + header) := by
  have hr' : (0 : ℚ) < (rate : ℚ) := by exact_mod_cast hr
  have hu : u32 ((size : ℤ) + header) = size + header := by rw [u32_eq (by omega) (by omega)]; omega
  unfold poisson cdivQ at h
  rw [if_neg hr'.ne', hu] at h
  simp only [Outcome.bind_ok, Outcome.ok.injEq] at h
  subst h
  simp only
  rw [sub_pos, div_lt_div_iff₀ (by norm_num) hr']
  rw [← Nat.cast_lt (α := ℚ)]
  push_cast
  constructor <;> intro h <;> linarith

/-- In particular for every requested rate below the maximum. -/
theorem C53_off_positive_below_max (rate header size : Nat) (hr : 0 < rate) (hmax : rate < 2 ^ 64 - 1) (hpos : 0 < size + header)
    (hs : size + header < 2 ^ 32) (p : Poisson) (h : poisson rate header size = .ok p) : 0 < p.offMean := by
  rw [C53_off_positive rate header size hr hs p h]
  have hd : p.dataRate = 2 ^ 64 - 1 := by
    unfold poisson cdivQ at h
    split at h
    · simp at h
    · simp only [Outcome.bind_ok, Outcome.ok.injEq] at h
      subst h; rfl
  rw [hd]
  calc rate * size ≤ rate * (size + header) := Nat.mul_le_mul_left _ (by omega)
    _ < (2 ^ 64 - 1) * (size + header) := Nat.mul_lt_mul_of_pos_right hmax hpos

/-- A requested rate of zero gives no finite mean. -/
theorem C53_rate_zero (header size : Nat) : poisson 0 header size = .ub .notANumber := by
  simp [poisson, cdivQ]

/-- If packet and header sizes together do not fit 32 bits the cycle is too short: the source is faster than requested. -/
theorem C53_sizes_wrap (rate header size : Nat) (hr : 0 < rate) (hs : 2 ^ 32 ≤ size + header) :
    ∃ p, poisson rate header size = .ok p ∧ (p.onTime + p.offMean) * rate < 8 * (size + header) := by
  have hr' : (rate : ℚ) ≠ 0 := by exact_mod_cast hr.ne'
  unfold poisson cdivQ
  rw [if_neg hr']
  refine ⟨_, rfl, ?_⟩
  have hu : u32 ((size : ℤ) + header) < size + header := by
    unfold u32
    have := Int.emod_lt_of_pos ((size : ℤ) + header) (show (0 : ℤ) < 2 ^ 32 by norm_num)
    have := Int.emod_nonneg ((size : ℤ) + header) (show (2 ^ 32 : ℤ) ≠ 0 by norm_num)
    omega
  have hu' : ((u32 ((size : ℤ) + header) : ℕ) : ℚ) < (size : ℚ) + header := by exact_mod_cast hu
  simp only
  rw [add_sub_cancel, div_mul_cancel₀ _ hr']
  linarith

example : poisson 1000000 20 512 = .ok ⟨2 ^ 64 - 1, 512, 512 * 8 / (2 ^ 64 - 1), 8 * 532 / 1000000 - 512 * 8 / (2 ^ 64 - 1)⟩ := by
  have : u32 (((512 : ℕ) : ℤ) + ((20 : ℕ) : ℤ)) = 532 := by decide
  unfold poisson cdivQ
  rw [if_neg (by norm_num), this]
  norm_num

end Traffic
end Icarus
