import Verif.Spec.Responses
/-!
# Specification: VPD pages as the code returns them

Where the code departs from SPC-4/SBC-3 (see C35-C42, C66), this is what it returns instead, byte by byte.
-/

namespace Scsi2Nvme.Spec
open Scsi2Nvme

/-- The number of hexadecimal digits of `n` without leading zeros. -/
def digits (n : Nat) : Nat := if n < 16 then 1 else digits (n / 16) + 1

/-- What 16 characters of a buffer hold after `sprintf("%08lx", n)`: at least eight digits, a zero byte, and then what the
buffer held before (`stack`). -/
def printed (stack : List Byte) (n : Nat) : List Byte :=
  let k := max 8 (digits n)
  (hex k n ++ [0] ++ stack.drop (k + 1)).take 16

/-- The serial number string, made of a stack buffer which holds `stack` before. -/
def actualSerial (stack ns ctrl : List Byte) (nsid : Nat) : List Byte :=
  if nguid ns ≠ zeros 16 then
    groups (printed stack (leAt ns 104 8)) ++ ascii "_" ++ groups (printed (stack.drop 16) (leAt ns 112 8)) ++ ascii "."
  else if eui64 ns ≠ zeros 8 then groups (printed stack (leAt ns 120 8)) ++ ascii "."
  else slice ctrl 4 20 ++ ascii "_" ++ hex 8 nsid ++ ascii "."

/-- The complete VPD page returned for a page code, if any.  The stack buffer of 33 bytes used for page 80h holds `stack`. -/
def actualVpd (stack : List Byte) (page : Nat) (ns ctrl : List Byte) (nsid : Nat) : Option (List Byte) :=
  if page = 0x00 then some ([0x00, 0x00, 0x00, 0x07] ++ vpdPages)
  else if page = 0x80 then
    let s := actualSerial stack ns ctrl nsid
    some (vpdHead 0x80 s.length ++ (s ++ zeros (40 - s.length)))
  else if page = 0x83 then (identifier ns).map fun id => [0x00, 0x83] ++ le 1 (3 + id.length) ++ designator id
  else if page = 0x86 then
    (spt (supportsType3 ns) (supportsType2 ns) (supportsType1 ns)).map fun s =>
      [0x00, 0x86, 0x3c, 0x00] ++ extendedBody ns ctrl s
  else if page = 0xb0 then some ([0x00, 0xb0, 0x3c, 0x00] ++ blockLimitsBody ctrl)
  else if page = 0xb1 then some [0x00, 0x83, 0x3c, 0x00, 0x01, 0x00, 0x00, 0x00, 0x00]
  else if page = 0xb2 then some (provisioningPage ns ctrl ++ zeros 56)
  else none

end Scsi2Nvme.Spec
