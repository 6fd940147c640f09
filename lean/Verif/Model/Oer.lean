import Verif.Model.Basic
/-
Model of /repo/src/dms/oer.rs (the OER encoder) and of the CRC used for version IDs.
The encoder appends to a byte vector; each function below gives the bytes appended.
-/
namespace Ntcip.Oer

/-- `Oer::u8`; oer.rs:23-26 -/
def u8 (v : UInt8) : List UInt8 := [v]

/-- `Oer::u16`; oer.rs:28-32 -/
def u16 (v : UInt16) : List UInt8 := [(v >>> 8).toUInt8, v.toUInt8]

/-- `Oer::u24`; oer.rs:34-39 -/
def u24 (v : UInt32) : List UInt8 := [(v >>> 16).toUInt8, (v >>> 8).toUInt8, v.toUInt8]

/-- `Oer::u32`; oer.rs:41-47 -/
def u32 (v : UInt32) : List UInt8 :=
  [(v >>> 24).toUInt8, (v >>> 16).toUInt8, (v >>> 8).toUInt8, v.toUInt8]

/-- `Oer::length_prefix`; oer.rs:49-66 -/
def lengthPrefix (len : UInt32) : List UInt8 :=
  if len ≤ 0x7F then [len.toUInt8]
  else if len ≤ 0xFF then (128 ||| 1) :: u8 len.toUInt8
  else if len ≤ 0xFFFF then (128 ||| 2) :: u16 len.toUInt16
  else if len ≤ 0xFFFFFF then (128 ||| 3) :: u24 len
  else (128 ||| 4) :: u32 len

/-- `Oer::uint`; oer.rs:68-83 -/
def uint (v : UInt32) : List UInt8 :=
  if v ≤ 0xFF then lengthPrefix 1 ++ u8 v.toUInt8
  else if v ≤ 0xFFFF then lengthPrefix 2 ++ u16 v.toUInt16
  else if v ≤ 0xFFFFFF then lengthPrefix 3 ++ u24 v
  else lengthPrefix 4 ++ u32 v

/-- `Oer::octet_string`; oer.rs:85-89.  `len() as u32` keeps the low 32 bits. -/
def octetString (octets : List UInt8) : List UInt8 :=
  lengthPrefix (UInt32.ofNat octets.length) ++ octets

/-- `Oer::octet_str`; oer.rs:91-94 -/
def octetStr (octets : List UInt8) : List UInt8 := octets

end Ntcip.Oer

namespace Ntcip.Crc

/-- One shift of the reflected CRC register: polynomial 0x1021, reflected 0x8408. -/
def shift (s : BitVec 16) : BitVec 16 :=
  if s.getLsbD 0 then (s >>> 1) ^^^ 0x8408#16 else s >>> 1

/-- Update of the CRC register with one byte -/
def byte (s : BitVec 16) (b : UInt8) : BitVec 16 :=
  shift (shift (shift (shift (shift (shift (shift (shift (s ^^^ b.toBitVec.setWidth 16))))))))

/-- `CRC.checksum(&buf)` with `CRC_16_IBM_SDLC` (font/mod.rs:16, graphic.rs:18): the
parameters are those of the `crc` crate's catalog: width 16, poly 0x1021, init 0xffff,
refin, refout, xorout 0xffff.  (The crate computes it with a table; same function.) -/
def checksum (buf : List UInt8) : BitVec 16 := (buf.foldl byte 0xffff#16) ^^^ 0xffff#16

/-- `u16::from_be(x)` on a little-endian host: the two bytes are swapped
(font/mod.rs:203, graphic.rs:147) -/
def fromBe (x : BitVec 16) : UInt16 := ⟨(x <<< 8) ||| (x >>> 8)⟩

end Ntcip.Crc
