import Verif.Model.SatAddress

/-! Helper lemmas for `Verif.Props.SatAddress`. -/

set_option autoImplicit false

namespace Icarus

theorem u16_ext {a b : UInt16} (h : a.toNat = b.toNat) : a = b := UInt16.toNat_inj.mp h
theorem u8_ext {a b : UInt8} (h : a.toNat = b.toNat) : a = b := UInt8.toNat_inj.mp h

theorem htons_toNat_little (x : UInt16) :
    (htons .little x).toNat = (x.toNat % 256) * 256 + x.toNat / 256 := by
  have := x.toNat_lt
  simp [htons]; omega

@[simp] theorem htons_htons (e : Endian) (x : UInt16) : htons e (htons e x) = x := by
  cases e with
  | big => rfl
  | little =>
    apply u16_ext
    rw [htons_toNat_little, htons_toNat_little]
    have := x.toNat_lt
    omega

theorem fromMem_toMem (e : Endian) (x : UInt16) :
    ∃ b0 b1, toMem e x = [b0, b1] ∧ fromMem e b0 b1 = x := by
  have := x.toNat_lt
  cases e <;> refine ⟨_, _, rfl, u16_ext ?_⟩ <;> simp [fromMem] <;> omega

theorem toMem_fromMem (e : Endian) (b0 b1 : UInt8) : toMem e (fromMem e b0 b1) = [b0, b1] := by
  have := b0.toNat_lt
  have := b1.toNat_lt
  cases e <;> simp only [toMem, fromMem, List.cons.injEq, and_true] <;>
    constructor <;> apply u8_ext <;> simp <;> omega

/-- In memory, a stored (network order) field is the big-endian image of its host value. -/
theorem toMem_htons (e : Endian) (x : UInt16) :
    toMem e (htons e x) = [UInt8.ofNat (x.toNat / 256), UInt8.ofNat (x.toNat % 256)] := by
  have := x.toNat_lt
  cases e with
  | big => rfl
  | little =>
    simp only [toMem, htons_toNat_little, List.cons.injEq, and_true]
    constructor <;> congr 1 <;> omega

theorem toMem_be16 (e : Endian) (x : UInt16) :
    ∃ b0 b1, toMem e x = [b0, b1] ∧ htons e (SatAddress.be16 b0 b1) = x := by
  obtain ⟨y, rfl⟩ : ∃ y, x = htons e y := ⟨htons e x, by simp⟩
  rw [toMem_htons]
  refine ⟨_, _, rfl, ?_⟩
  congr 1
  apply u16_ext
  have := y.toNat_lt
  simp [SatAddress.be16]; omega

theorem toMem_inj (e : Endian) {x y : UInt16} (h : toMem e x = toMem e y) : x = y := by
  obtain ⟨b0, b1, hx, hx'⟩ := fromMem_toMem e x
  obtain ⟨c0, c1, hy, hy'⟩ := fromMem_toMem e y
  rw [hx, hy] at h
  simp only [List.cons.injEq, and_true] at h
  rw [← hx', ← hy', h.1, h.2]

theorem toMem_length (e : Endian) (x : UInt16) : (toMem e x).length = 2 := by cases e <;> rfl

namespace SatAddress

theorem hexDigits_pad (u : Bool) (n : Nat) (h : n < 65536) :
    List.replicate (4 - (hexDigits u n).length) '0' ++ hexDigits u n =
      [hexChar u (n / 4096), hexChar u (n / 256 % 16), hexChar u (n / 16 % 16), hexChar u (n % 16)] := by
  have h0 : hexChar u 0 = '0' := by simp [hexChar]
  have key : ∀ m, 16 ≤ m → hexDigits u m = hexDigits u (m / 16) ++ [hexChar u (m % 16)] := by
    intro m hm; rw [hexDigits, if_neg (by omega)]
  have base : ∀ m, m < 16 → hexDigits u m = [hexChar u m] := by
    intro m hm; rw [hexDigits, if_pos hm]
  by_cases h1 : n < 16
  · rw [base n h1]
    have a1 : n / 4096 = 0 := by omega
    have a2 : n / 256 % 16 = 0 := by omega
    have a3 : n / 16 % 16 = 0 := by omega
    have a4 : n % 16 = n := by omega
    simp [a1, a2, a3, a4, h0, List.replicate]
  by_cases h2 : n < 256
  · rw [key n (by omega), base _ (by omega)]
    have a1 : n / 4096 = 0 := by omega
    have a2 : n / 256 % 16 = 0 := by omega
    have a3 : n / 16 % 16 = n / 16 := by omega
    simp [a1, a2, a3, h0, List.replicate]
  by_cases h3 : n < 4096
  · rw [key n (by omega), key _ (by omega), base _ (by omega)]
    have a1 : n / 4096 = 0 := by omega
    have a2 : n / 16 / 16 = n / 256 := by omega
    have a3 : n / 256 % 16 = n / 256 := by omega
    simp [a1, a2, a3, h0, List.replicate]
  · rw [key n (by omega), key _ (by omega), key _ (by omega), base _ (by omega)]
    have a1 : n / 16 / 16 / 16 = n / 4096 := by omega
    have a2 : n / 16 / 16 % 16 = n / 256 % 16 := by omega
    simp [a1, a2, List.replicate]

/-- The four digits printed for a 16-bit value. -/
theorem putHex_default (f : OFlags) (hl : f.left = false) (hs : f.showbase = false)
    (hu : f.uppercase = false) (hf : f.fill = '0') (x : UInt16) :
    putHex f x = [hexChar false (x.toNat / 4096), hexChar false (x.toNat / 256 % 16),
      hexChar false (x.toNat / 16 % 16), hexChar false (x.toNat % 16)] := by
  rw [← hexDigits_pad false x.toNat x.toNat_lt]
  simp [putHex, hl, hs, hu, hf]

theorem hexVal_hexChar (d : Nat) (h : d < 16) : hexVal (hexChar false d) = some d := by
  have : ∀ d : Fin 16, hexVal (hexChar false d) = some d.val := by decide
  exact this ⟨d, h⟩

theorem isSpace_hexChar (d : Nat) (h : d < 16) : isSpace (hexChar false d) = false := by
  have : ∀ d : Fin 16, isSpace (hexChar false d) = false := by decide
  exact this ⟨d, h⟩

theorem hexChar_ne (d : Nat) (h : d < 16) : hexChar false d ≠ ':' ∧ hexChar false d ≠ '-' ∧
    hexChar false d ≠ '+' ∧ hexChar false d ≠ 'x' ∧ hexChar false d ≠ 'X' := by
  have : ∀ d : Fin 16, hexChar false d ≠ ':' ∧ hexChar false d ≠ '-' ∧
    hexChar false d ≠ '+' ∧ hexChar false d ≠ 'x' ∧ hexChar false d ≠ 'X' := by decide
  exact this ⟨d, h⟩

theorem takeHex_rest (rest : List Char) (h : ∀ c, rest.head? = some c → hexVal c = none) (acc cnt : Nat) :
    takeHex rest acc cnt = (acc, cnt, rest) := by
  cases rest with
  | nil => rfl
  | cons c cs => simp [takeHex, h c rfl]

/-- Reading four printed digits followed by something that is not a digit. -/
theorem getHex_putHex (f : OFlags) (hl : f.left = false) (hs : f.showbase = false)
    (hu : f.uppercase = false) (hf : f.fill = '0') (x : UInt16) (rest : List Char)
    (h : ∀ c, rest.head? = some c → hexVal c = none) :
    getHex { chars := putHex f x ++ rest } =
      ({ chars := rest, eof := rest.isEmpty, fail := false }, some x) := by
  rw [putHex_default f hl hs hu hf]
  have hx := x.toNat_lt
  generalize hn : x.toNat = n at *
  have b3 : n / 4096 < 16 := by omega
  have b2 : n / 256 % 16 < 16 := by omega
  have b1 : n / 16 % 16 < 16 := by omega
  have b0 : n % 16 < 16 := by omega
  have v3 := hexVal_hexChar _ b3
  have v2 := hexVal_hexChar _ b2
  have v1 := hexVal_hexChar _ b1
  have v0 := hexVal_hexChar _ b0
  have s3 := isSpace_hexChar _ b3
  have n3 := hexChar_ne _ b3
  have n2 := hexChar_ne _ b2
  have hsum : ((n / 4096 * 16 + n / 256 % 16) * 16 + n / 16 % 16) * 16 + n % 16 = n := by omega
  have hofn : UInt16.ofNat n = x := by rw [← hn]; simp
  generalize hexChar false (n / 4096) = c3 at *
  generalize hexChar false (n / 256 % 16) = c2 at *
  generalize hexChar false (n / 16 % 16) = c1 at *
  generalize hexChar false (n % 16) = c0 at *
  have hsign : takeSign (c3 :: c2 :: c1 :: c0 :: rest) = (false, c3 :: c2 :: c1 :: c0 :: rest) := by
    unfold takeSign; split <;> simp_all
  have hpre : takePrefix (c3 :: c2 :: c1 :: c0 :: rest) = c3 :: c2 :: c1 :: c0 :: rest := by
    unfold takePrefix; split <;> simp_all
  have htake : takeHex (c3 :: c2 :: c1 :: c0 :: rest) 0 0 = (n, 4, rest) := by
    simp [takeHex, v3, v2, v1, v0, takeHex_rest rest h, hsum]
  simp [getHex, s3, hsign, hpre, htake, hofn]
  omega

theorem getline_colon (pre rest : List Char) (h : ':' ∉ pre) (tmp : List Char) :
    getline { chars := pre ++ ':' :: rest } tmp = ({ chars := rest }, pre) := by
  have hw : List.takeWhile (· ≠ ':') (pre ++ ':' :: rest) = pre := by
    rw [List.takeWhile_append_of_pos]
    · simp
    · intro a ha; simp; rintro rfl; exact h ha
  simp only [getline, Bool.or_self, Bool.false_eq_true, if_false]
  rw [hw]
  simp

theorem colon_notMem_putHex (f : OFlags) (hl : f.left = false) (hs : f.showbase = false)
    (hu : f.uppercase = false) (hf : f.fill = '0') (x : UInt16) : ':' ∉ putHex f x := by
  rw [putHex_default f hl hs hu hf]
  have hx := x.toNat_lt
  have n3 := (hexChar_ne (x.toNat / 4096) (by omega)).1.symm
  have n2 := (hexChar_ne (x.toNat / 256 % 16) (by omega)).1.symm
  have n1 := (hexChar_ne (x.toNat / 16 % 16) (by omega)).1.symm
  have n0 := (hexChar_ne (x.toNat % 16) (by omega)).1.symm
  simp [n3, n2, n1, n0]

theorem mk3_getters (e : Endian) (a : SatAddress) :
    mk3 e (a.getConstellationId e) (a.getOrbitalPlane e) (a.getPlaneIndex e) = a := by
  cases a; simp [mk3, getConstellationId, getOrbitalPlane, getPlaneIndex]

end SatAddress
end Icarus
