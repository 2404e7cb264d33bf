import Verif.Lemmas.SatAddress

/-!
# Properties C01, C02: satellite addresses as bytes and as text

Everything is stated for an address built from three 16-bit numbers `c p i` on a host of either
endianness `e`.
-/

set_option autoImplicit false

namespace Icarus
open SatAddress

/-! ## C01 -/

/-- Specification of the wire format: each 16-bit number, most significant byte first. -/
def specWire (c p i : UInt16) : List UInt8 :=
  [UInt8.ofNat (c.toNat / 256), UInt8.ofNat (c.toNat % 256), UInt8.ofNat (p.toNat / 256),
   UInt8.ofNat (p.toNat % 256), UInt8.ofNat (i.toNat / 256), UInt8.ofNat (i.toNat % 256)]

/-- The getters return the numbers the address was built from. -/
theorem C01_getters (e : Endian) (c p i : UInt16) :
    (mk3 e c p i).getConstellationId e = c ∧ (mk3 e c p i).getOrbitalPlane e = p ∧
      (mk3 e c p i).getPlaneIndex e = i := by
  simp [mk3, getConstellationId, getOrbitalPlane, getPlaneIndex]

/-- The generic address and the raw buffer both carry exactly the wire format. -/
theorem C01_wire_format (e : Endian) (ty : UInt8) (c p i : UInt16) :
    (convertTo e ty (mk3 e c p i)).type = ty ∧ (convertTo e ty (mk3 e c p i)).data = specWire c p i ∧
      copyTo e (mk3 e c p i) = specWire c p i := by
  simp [convertTo, copyTo, mk3, toMem_htons, specWire]

/-- Encoding then decoding gives the same address back (debug and release builds). -/
theorem C01_roundtrip (debug : Bool) (e : Endian) (ty : UInt8) (a : SatAddress) :
    convertFrom debug e ty (convertTo e ty a) = .ok a ∧ copyFrom e (copyTo e a) = .ok a := by
  constructor
  · obtain ⟨c0, c1, hc, hc'⟩ := toMem_be16 e a.m_constellationId
    obtain ⟨p0, p1, hp, hp'⟩ := toMem_be16 e a.m_orbitalPlane
    obtain ⟨i0, i1, hi, hi'⟩ := toMem_be16 e a.m_planeIndex
    simp [convertFrom, convertTo, hc, hp, hi, Address.checkCompatible, mk3, hc', hp', hi']
  · obtain ⟨c0, c1, hc, hc'⟩ := fromMem_toMem e a.m_constellationId
    obtain ⟨p0, p1, hp, hp'⟩ := fromMem_toMem e a.m_orbitalPlane
    obtain ⟨i0, i1, hi, hi'⟩ := fromMem_toMem e a.m_planeIndex
    simp [copyFrom, copyTo, hc, hp, hi, hc', hp', hi']

/-- Decoding then encoding gives the same six bytes back: every 6-byte buffer is a valid encoding. -/
theorem C01_decode_total (debug : Bool) (e : Endian) (ty : UInt8) (bs : List UInt8) (h : bs.length = 6) :
    ∃ a, copyFrom e bs = .ok a ∧ copyTo e a = bs ∧
      convertFrom debug e ty ⟨ty, bs⟩ = .ok a ∧ convertTo e ty a = ⟨ty, bs⟩ := by
  match bs, h with
  | [b0, b1, b2, b3, b4, b5], _ =>
    refine ⟨_, rfl, by simp [copyTo, toMem_fromMem], ?_, by simp [convertTo, toMem_fromMem]⟩
    have := (C01_roundtrip debug e ty ⟨fromMem e b0 b1, fromMem e b2 b3, fromMem e b4 b5⟩).1
    simpa [convertTo, toMem_fromMem] using this

/-- Addresses compare equal exactly when they were built from the same numbers, exactly when their encodings
agree. -/
theorem C01_equality (e : Endian) (c p i c' p' i' : UInt16) :
    (eq e (mk3 e c p i) (mk3 e c' p' i') = true ↔ c = c' ∧ p = p' ∧ i = i') ∧
    (eq e (mk3 e c p i) (mk3 e c' p' i') = true ↔ copyTo e (mk3 e c p i) = copyTo e (mk3 e c' p' i')) := by
  have h1 : eq e (mk3 e c p i) (mk3 e c' p' i') = true ↔ c = c' ∧ p = p' ∧ i = i' := by
    simp [eq, mk3, getConstellationId, getOrbitalPlane, getPlaneIndex, and_assoc]
  refine ⟨h1, h1.trans ⟨?_, ?_⟩⟩
  · rintro ⟨rfl, rfl, rfl⟩; rfl
  · intro h
    have h2 : copyFrom e (copyTo e (mk3 e c p i)) = copyFrom e (copyTo e (mk3 e c' p' i')) := by rw [h]
    rw [(C01_roundtrip false e 0 _).2, (C01_roundtrip false e 0 _).2] at h2
    have h3 := Outcome.ok.inj h2
    have g := C01_getters e c p i
    rw [h3] at g
    have g' := C01_getters e c' p' i'
    exact ⟨g.1.symm.trans g'.1, g.2.1.symm.trans g'.2.1, g.2.2.symm.trans g'.2.2⟩

/-- Two addresses with equal stored representation are exactly those that compare equal. -/
theorem C01_eq_iff (e : Endian) (a b : SatAddress) : eq e a b = true ↔ a = b := by
  constructor
  · intro h
    rw [← mk3_getters e a, ← mk3_getters e b] at h
    have := (C01_equality e _ _ _ _ _ _).1.mp h
    rw [← mk3_getters e a, ← mk3_getters e b, this.1, this.2.1, this.2.2]
  · rintro rfl; simp [eq]

/-- Debug build: decoding never misbehaves; it succeeds exactly for six data bytes whose type is the registered
one (or ns-3's "unspecified" type 0), and trips an assertion otherwise. -/
theorem C01_refused (e : Endian) (ty : UInt8) (addr : Address) :
    (∃ a, convertFrom true e ty addr = .ok a) ∧ addr.data.length = 6 ∧ (addr.type = ty ∨ addr.type = 0) ∨
    convertFrom true e ty addr = .assertFail ∧ ¬(addr.data.length = 6 ∧ (addr.type = ty ∨ addr.type = 0)) := by
  by_cases h : addr.data.length = 6
  · by_cases ht : addr.type = ty ∨ addr.type = 0
    · left
      refine ⟨?_, h, ht⟩
      match hd : addr.data, h with
      | [b0, b1, b2, b3, b4, b5], _ =>
        refine ⟨mk3 e (be16 b0 b1) (be16 b2 b3) (be16 b4 b5), ?_⟩
        have hc : addr.checkCompatible ty 6 = true := by
          simp [Address.checkCompatible, hd]; exact ht
        unfold convertFrom
        rw [hc, hd]
        rfl
    · right
      refine ⟨?_, fun hh => ht hh.2⟩
      have : addr.checkCompatible ty 6 = false := by
        simp only [not_or] at ht
        simp [Address.checkCompatible, h, ht.1, ht.2]
      simp [convertFrom, this]
  · right
    refine ⟨?_, fun hh => h hh.1⟩
    unfold convertFrom
    have h' : (addr.data.length == 6) = false := by simpa using h
    cases addr.checkCompatible ty 6 <;> simp [h']

/-- Release build: nothing is refused; a wrong length is undefined behaviour (why the assertion matters). -/
theorem C01_release_wrong_length_is_ub (e : Endian) (ty : UInt8) (addr : Address) (h : addr.data.length ≠ 6) :
    (convertFrom false e ty addr).isUb = true := by
  unfold convertFrom
  simp only [Outcome.nsAssert_release, Outcome.bind_ok]
  split
  · rename_i hd; rw [hd] at h; simp at h
  · split <;> rfl

example : (convertTo .little 9 (mk3 .little 0x1234 0xabcd 7)).data = [0x12, 0x34, 0xab, 0xcd, 0, 7] := by decide
example : convertFrom true .little 9 ⟨9, [1, 2, 3]⟩ = .assertFail := by decide
example : ∃ a, convertFrom true .big 9 ⟨9, [1, 2, 3, 4, 5, 6]⟩ = .ok a := ⟨_, rfl⟩
example : (⟨9, [1, 2, 3]⟩ : Address).data.length ≠ 6 := by decide

/-! ## C02 -/

/-- Characters allowed in a printed address field. -/
def specLowerHex : List Char :=
  ['0', '1', '2', '3', '4', '5', '6', '7', '8', '9', 'a', 'b', 'c', 'd', 'e', 'f']

/-- The number written by a list of lower-case hexadecimal digits (most significant first). -/
def specHexValue (ds : List Char) : Nat := ds.foldl (fun v d => v * 16 + specLowerHex.idxOf d) 0

/-- A stream whose number formatting flags are the defaults (base and fill character are arbitrary: the
operator sets them). -/
def SatAddress.OFlags.Plain (f : OFlags) : Prop := f.left = false ∧ f.uppercase = false ∧ f.showbase = false

theorem idxOf_hexChar (d : Nat) (h : d < 16) :
    specLowerHex.idxOf (hexChar false d) = d ∧ hexChar false d ∈ specLowerHex := by
  have : ∀ d : Fin 16, specLowerHex.idxOf (hexChar false d) = d.val ∧ hexChar false d ∈ specLowerHex := by decide
  exact this ⟨d, h⟩

/-- The printed text is `XXXX:YYYY:ZZZZ`: four lower-case hexadecimal digits per field whose values are the three
numbers.  The stream's base and fill are reset to decimal and blank. -/
theorem C02_format (e : Endian) (f : OFlags) (hf : f.Plain) (c p i : UInt16) :
    ∃ C P I : List Char, (print e f (mk3 e c p i)).1 = C ++ ':' :: P ++ ':' :: I ∧
      C.length = 4 ∧ P.length = 4 ∧ I.length = 4 ∧
      (∀ x ∈ C ++ P ++ I, x ∈ specLowerHex) ∧
      specHexValue C = c.toNat ∧ specHexValue P = p.toNat ∧ specHexValue I = i.toNat ∧
      (print e f (mk3 e c p i)).2.hex = false ∧ (print e f (mk3 e c p i)).2.fill = ' ' := by
  obtain ⟨hl, hu, hs⟩ := hf
  have key : ∀ x : UInt16, ∃ D : List Char,
      putHex { f with hex := true, fill := '0' } x = D ∧ D.length = 4 ∧ (∀ y ∈ D, y ∈ specLowerHex) ∧
        specHexValue D = x.toNat := by
    intro x
    have hx := x.toNat_lt
    refine ⟨_, putHex_default { f with hex := true, fill := '0' } hl hs hu rfl x, rfl, ?_, ?_⟩
    · intro y hy
      simp only [List.mem_cons, List.not_mem_nil, or_false] at hy
      rcases hy with rfl | rfl | rfl | rfl
      · exact (idxOf_hexChar _ (by omega)).2
      · exact (idxOf_hexChar _ (by omega)).2
      · exact (idxOf_hexChar _ (by omega)).2
      · exact (idxOf_hexChar _ (by omega)).2
    · simp only [specHexValue, List.foldl_cons, List.foldl_nil]
      rw [(idxOf_hexChar _ (by omega)).1, (idxOf_hexChar _ (by omega)).1, (idxOf_hexChar _ (by omega)).1,
        (idxOf_hexChar _ (by omega)).1]
      omega
  obtain ⟨C, hC, lC, mC, vC⟩ := key c
  obtain ⟨P, hP, lP, mP, vP⟩ := key p
  obtain ⟨I, hI, lI, mI, vI⟩ := key i
  obtain ⟨g1, g2, g3⟩ := C01_getters e c p i
  refine ⟨C, P, I, ?_, lC, lP, lI, ?_, vC, vP, vI, rfl, rfl⟩
  · simp [print, g1, g2, g3, hC, hP, hI]
  · intro x hx
    simp only [List.mem_append] at hx
    rcases hx with (hx | hx) | hx
    · exact mC x hx
    · exact mP x hx
    · exact mI x hx

/-- Reading back the printed text yields the same address, leaves the stream good (at end-of-file exactly if
nothing follows) and leaves what follows unread, provided what follows does not start with a hex digit. -/
theorem C02_roundtrip (e : Endian) (f : OFlags) (hf : f.Plain) (a : SatAddress) (rest : List Char)
    (hrest : ∀ c, rest.head? = some c → hexVal c = none) :
    parse e { chars := (print e f a).1 ++ rest } =
      .ok ({ chars := rest, eof := rest.isEmpty, fail := false }, a) := by
  obtain ⟨hl, hu, hs⟩ := hf
  have n1 := colon_notMem_putHex { f with hex := true, fill := '0' } hl hs hu rfl
  have r1 := getHex_putHex { f with hex := true, fill := '0' } hl hs hu rfl
  have nil : ∀ c, ([] : List Char).head? = some c → hexVal c = none := by simp
  have r0 : ∀ x, getHex { chars := putHex { f with hex := true, fill := '0' } x } =
      ({ chars := [], eof := true, fail := false }, some x) := by
    intro x; simpa using r1 x [] nil
  simp only [parse, print, List.append_assoc, List.cons_append]
  rw [getline_colon _ _ (n1 _)]
  simp only [r0, getline_colon _ _ (n1 _), r1 _ rest hrest, mk3_getters]

/-- Different addresses print differently. -/
theorem C02_injective (e : Endian) (f : OFlags) (hf : f.Plain) (a b : SatAddress)
    (h : (print e f a).1 = (print e f b).1) : a = b := by
  have nil : ∀ c, ([] : List Char).head? = some c → hexVal c = none := by simp
  have ha := C02_roundtrip e f hf a [] nil
  have hb := C02_roundtrip e f hf b [] nil
  rw [h, hb] at ha
  exact ((Prod.mk.injEq _ _ _ _).mp (Outcome.ok.inj ha)).2.symm

/-- The restriction to default flags is needed: on a left-aligned stream the address 1:2:3 prints as 4096:8192:12288
would. -/
theorem C02_left_aligned_stream_misprints :
    (print .little { left := true } (mk3 .little 1 2 3)).1 = "1000:2000:3000".toList := by
  simp [print, putHex, mk3, getConstellationId, getOrbitalPlane, getPlaneIndex]
  simp [hexDigits, hexChar]

/-- An empty field makes the reader build the address from a variable that was never assigned. -/
theorem C02_empty_field_is_ub (e : Endian) (rest : List Char) :
    parse e { chars := ':' :: rest } = .ub .uninitialised := by
  have : getline { chars := ':' :: rest } [] = ({ chars := rest }, []) := by
    simpa using getline_colon [] rest (by simp) []
  simp only [parse, this]
  have h2 : (getHex { chars := [] }).2 = none := rfl
  generalize getHex { chars := [] } = g at *
  obtain ⟨g1, g2⟩ := g
  simp only at h2
  subst h2
  rfl

example : OFlags.Plain {} := ⟨rfl, rfl, rfl⟩
example : (∀ c, (" next".toList).head? = some c → hexVal c = none) := by decide
example : (parse .little { chars := "0001:00ff:abcd rest".toList }) =
    .ok ({ chars := " rest".toList }, mk3 .little 1 255 0xabcd) := by decide

end Icarus
