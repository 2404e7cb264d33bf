import Verif.Model.PacketTag
import Verif.Props.SatAddress

/-!
# Property C41: packet tags
-/

set_option autoImplicit false

namespace Icarus
open PacketTag

/-- The bytes on which the format agrees: address fields big-endian, protocol number low byte first. -/
theorem bytesU16_u16Bytes (x : UInt16) : bytesU16 (u16Bytes x) = x := by
  have h := x.toNat_lt
  apply UInt16.toNat_inj.mp
  simp only [u16Bytes, bytesU16, UInt8.toNat_ofNat', UInt16.toNat_ofNat']
  omega

theorem leBytes_length (k x : Nat) : (leBytes k x).length = k := by
  induction k generalizing x with
  | zero => rfl
  | succ k ih => simp [leBytes, ih]

theorem leValue_leBytes (k x : Nat) (h : x < 256 ^ k) : leValue (leBytes k x) = x := by
  induction k generalizing x with
  | zero => simp only [Nat.pow_zero, Nat.lt_one_iff] at h; subst h; rfl
  | succ k ih =>
    simp only [leBytes, leValue]
    rw [ih (x / 256) (by rw [Nat.pow_succ] at h; omega)]
    simp only [UInt8.toNat_ofNat']
    omega

theorem bytesDouble_doubleBytes (e : Endian) (x : UInt64) : bytesDouble e (doubleBytes e x) = x := by
  have h := x.toNat_lt
  have h2 : leValue (leBytes 8 x.toNat) = x.toNat := leValue_leBytes 8 _ h
  cases e <;> simp [bytesDouble, doubleBytes, h2]

theorem doubleBytes_length (e : Endian) (x : UInt64) : (doubleBytes e x).length = 8 := by
  cases e <;> simp [doubleBytes, leBytes_length]

theorem copyTo_length (e : Endian) (a : SatAddress) : (a.copyTo e).length = 6 := by
  cases e <;> simp [SatAddress.copyTo, toMem]

theorem write_eq (pre mem bytes post : List UInt8) (h : mem.length = bytes.length) :
    write ⟨pre ++ mem ++ post, pre.length⟩ bytes = .ok ⟨pre ++ bytes ++ post, pre.length + bytes.length⟩ := by
  unfold write
  rw [if_pos (by simp; omega)]
  congr 2
  have h1 : (pre ++ mem ++ post).take pre.length = pre := by simp
  have h2 : (pre ++ mem ++ post).drop (pre.length + bytes.length) = post := by
    rw [← h, ← List.length_append]; simp
  simp only [h1, h2]

theorem read_eq (pre bytes post : List UInt8) (n : Nat) (h : bytes.length = n) :
    read ⟨pre ++ bytes ++ post, pre.length⟩ n = .ok (bytes, ⟨pre ++ bytes ++ post, pre.length + n⟩) := by
  unfold PacketTag.read
  rw [if_pos (by simp; omega)]
  subst h
  simp [List.append_assoc]

/-- Writing 6, 2 and 8 bytes at the beginning of an area of at least 16. -/
theorem write_three (mem a p d : List UInt8) (ha : a.length = 6) (hp : p.length = 2) (hd : d.length = 8) (hm : 16 ≤ mem.length) :
    (do let i ← write ⟨mem, 0⟩ a; let i ← write i p; write i d) = .ok ⟨a ++ p ++ d ++ mem.drop 16, 16⟩ := by
  have e0 : mem = [] ++ mem.take 6 ++ mem.drop 6 := by simp
  have e1 : mem.drop 6 = (mem.drop 6).take 2 ++ mem.drop 8 := by
    rw [show mem.drop 8 = (mem.drop 6).drop 2 by rw [List.drop_drop]]; exact (List.take_append_drop _ _).symm
  have e2 : mem.drop 8 = (mem.drop 8).take 8 ++ mem.drop 16 := by
    rw [show mem.drop 16 = (mem.drop 8).drop 8 by rw [List.drop_drop]]; exact (List.take_append_drop _ _).symm
  have w0 : write ⟨mem, 0⟩ a = .ok ⟨[] ++ a ++ mem.drop 6, 0 + a.length⟩ := by
    have := write_eq [] (mem.take 6) a (mem.drop 6) (by simp; omega)
    rw [← e0] at this
    simpa using this
  have w1 : write ⟨a ++ mem.drop 6, a.length⟩ p = .ok ⟨a ++ p ++ mem.drop 8, a.length + p.length⟩ := by
    have := write_eq a ((mem.drop 6).take 2) p (mem.drop 8) (by simp; omega)
    rw [List.append_assoc a, ← e1] at this
    exact this
  have w2 : write ⟨a ++ p ++ mem.drop 8, (a ++ p).length⟩ d = .ok ⟨a ++ p ++ d ++ mem.drop 16, (a ++ p).length + d.length⟩ := by
    have := write_eq (a ++ p) ((mem.drop 8).take 8) d (mem.drop 16) (by simp; omega)
    rw [List.append_assoc (a ++ p) ((mem.drop 8).take 8), ← e2] at this
    exact this
  rw [w0, Outcome.bind_ok, List.nil_append, Nat.zero_add, w1, Outcome.bind_ok, ← List.length_append, w2]
  simp [ha, hp, hd]

/-- Reading them back. -/
theorem read_three {α : Type} (a p d post : List UInt8) (ha : a.length = 6) (hp : p.length = 2) (hd : d.length = 8)
    (f : List UInt8 → List UInt8 → List UInt8 → Outcome α) :
    (do let (x, i) ← read ⟨a ++ p ++ d ++ post, 0⟩ 6
        let (y, i) ← read i 2
        let (z, _) ← read i 8
        f x y z) = f a p d := by
  have r0 := read_eq [] a (p ++ d ++ post) 6 ha
  have r1 := read_eq a p (d ++ post) 2 hp
  have r2 := read_eq (a ++ p) d post 8 hd
  simp only [List.nil_append, List.length_nil, List.append_assoc, ha, List.length_append, hp, Nat.zero_add] at r0 r1 r2
  simp only [List.append_assoc, r0, Outcome.bind_ok, r1, r2]

/-- Serialising the ground station's tag into a memory area of the declared size - whatever it contained - writes only inside it, and
reading the area back gives the same destination, protocol number and power bit pattern. -/
theorem C41_ground_tag (e : Endian) (t : GroundSatTag) (mem : List UInt8) (h : mem.length = serializedSize) :
    ∃ b, t.serialize e ⟨mem, 0⟩ = .ok b ∧ b.data.length = mem.length ∧ GroundSatTag.deserialize e ⟨b.data, 0⟩ = .ok t := by
  have ha := copyTo_length e t.dst
  have hp : (u16Bytes t.proto).length = 2 := rfl
  have hd := doubleBytes_length e t.power
  refine ⟨_, write_three mem _ _ _ ha hp hd (by rw [h, serializedSize]; omega), ?_, ?_⟩
  · simp [ha, hp, hd, h, serializedSize]
  · have hcf := (C01_roundtrip true e 0 t.dst).2
    unfold GroundSatTag.deserialize
    have r0 := read_eq [] (t.dst.copyTo e) (u16Bytes t.proto ++ doubleBytes e t.power ++ mem.drop 16) 6 ha
    have r1 := read_eq (t.dst.copyTo e) (u16Bytes t.proto) (doubleBytes e t.power ++ mem.drop 16) 2 hp
    have r2 := read_eq (t.dst.copyTo e ++ u16Bytes t.proto) (doubleBytes e t.power) (mem.drop 16) 8 hd
    simp only [List.nil_append, List.length_nil, List.append_assoc, ha, List.length_append, hp, Nat.zero_add] at r0 r1 r2
    simp only [List.append_assoc, r0, r1, r2, Outcome.bind_ok, hcf, bytesU16_u16Bytes, bytesDouble_doubleBytes]

/-- The same for the satellite's tag. -/
theorem C41_sat_tag (e : Endian) (t : SatGroundTag) (ht : t.dst.length = 6) (mem : List UInt8) (h : mem.length = serializedSize) :
    ∃ b, t.serialize e ⟨mem, 0⟩ = .ok b ∧ b.data.length = mem.length ∧ SatGroundTag.deserialize e ⟨b.data, 0⟩ = .ok t := by
  have hp : (u16Bytes t.proto).length = 2 := rfl
  have hd := doubleBytes_length e t.power
  refine ⟨_, write_three mem _ _ _ ht hp hd (by rw [h, serializedSize]; omega), ?_, ?_⟩
  · simp [ht, hp, hd, h, serializedSize]
  · have := read_three t.dst (u16Bytes t.proto) (doubleBytes e t.power) (mem.drop 16) ht hp hd
      (fun x y z => .ok (⟨x, bytesU16 y, bytesDouble e z⟩ : SatGroundTag))
    rw [bytesU16_u16Bytes, bytesDouble_doubleBytes] at this
    exact this

/-- The layout: 16 of the 26 declared bytes are used (the last ten keep what the area contained); the destination is written in the wire format of
satellite addresses, the protocol number low byte first. -/
theorem C41_layout (e : Endian) (c p i q : UInt16) (w : UInt64) (mem : List UInt8) (h : mem.length = serializedSize) :
    ∃ d, d.length = 8 ∧ (GroundSatTag.mk (SatAddress.mk3 e c p i) q w).serialize e ⟨mem, 0⟩ =
      .ok ⟨specWire c p i ++ [UInt8.ofNat (q.toNat % 256), UInt8.ofNat (q.toNat / 256)] ++ d ++ mem.drop 16, 16⟩ := by
  refine ⟨doubleBytes e w, doubleBytes_length e w, ?_⟩
  have hw := (C01_wire_format e 0 c p i).2.2
  have := write_three mem ((SatAddress.mk3 e c p i).copyTo e) (u16Bytes q) (doubleBytes e w) (copyTo_length e _) rfl
    (doubleBytes_length e w) (by rw [h, serializedSize]; omega)
  rw [hw] at this
  unfold GroundSatTag.serialize
  simp only [hw]
  exact this

example : (GroundSatTag.mk (SatAddress.mk3 .little 1 2 3) 0x7777 0x4034000000000000).serialize .little
    ⟨List.replicate 26 255, 0⟩ = .ok ⟨[0, 1, 0, 2, 0, 3, 0x77, 0x77, 0, 0, 0, 0, 0, 0, 0x34, 0x40] ++ List.replicate 10 255, 16⟩ := by decide

end Icarus
