import Verif.Spec.Wire
/-!
# Specification: the data returned to the initiator, byte by byte

`ns` is the 4096-byte Identify Namespace page, `ctrl` the Identify Controller page.  Fields are given by their
byte positions in the NVMe specification (little endian) and in SPC-4/SBC-3 (big endian).
-/

namespace Scsi2Nvme.Spec
open Scsi2Nvme

/-- The ASCII codes of a string. -/
def ascii (s : String) : List Byte := s.toList.map fun c => BitVec.ofNat 8 c.toNat

/-- Bytes `pos … pos+len-1`. -/
def slice (bs : List Byte) (pos len : Nat) : List Byte := (bs.drop pos).take len

/-! ## Identify data -/

/-- Namespace size in blocks (NSZE). -/
def nsze (ns : List Byte) : Nat := leAt ns 0 8
/-- Namespace capacity in blocks (NCAP). -/
def ncap (ns : List Byte) : Nat := leAt ns 8 8
/-- Thin provisioning (NSFEAT bit 0). -/
def thin (ns : List Byte) : Bool := bit ns 24 0
/-- Is protection information enabled (DPS, bits 0-2: type, bit 3: position)? -/
def protection (ns : List Byte) : Bool := byte ns 29 % 16 ≠ 0
/-- The LBA data size exponent of the LBA format in use (FLBAS bits 0-3 select one of the 4-byte entries at 128,
LBADS is byte 2 of the entry). -/
def lbads (ns : List Byte) : Nat := byte ns (128 + 4 * (byte ns 26 % 16) + 2)
/-- The supported protection information types (DPC bits 0, 1, 2: types 1, 2, 3). -/
def supportsType1 (ns : List Byte) : Bool := bit ns 28 0
/-- see `supportsType1` -/
def supportsType2 (ns : List Byte) : Bool := bit ns 28 1
/-- see `supportsType1` -/
def supportsType3 (ns : List Byte) : Bool := bit ns 28 2
/-- NGUID, bytes 104-119. -/
def nguid (ns : List Byte) : List Byte := slice ns 104 16
/-- EUI-64, bytes 120-127. -/
def eui64 (ns : List Byte) : List Byte := slice ns 120 8
/-- Dataset management supported (ONCS bit 2). -/
def deallocates (ctrl : List Byte) : Bool := bit ctrl 520 2
/-- Fused compare and write supported (FUSES bit 0). -/
def fusedCompareWrite (ctrl : List Byte) : Bool := bit ctrl 522 0
/-- Volatile write cache present (VWC bit 0). -/
def writeCache (ctrl : List Byte) : Bool := bit ctrl 525 0
/-- Maximum data transfer size exponent (MDTS). -/
def mdts (ctrl : List Byte) : Nat := byte ctrl 77

/-! ## Standard INQUIRY data -/

/-- An ASCII graphic character. -/
def graphic (b : Byte) : Bool := 0x21 ≤ b.toNat ∧ b.toNat ≤ 0x7e

/-- The last `k` elements. -/
def lastN (k : Nat) (l : List Byte) : List Byte := l.drop (l.length - k)

/-- The last four graphic characters, right aligned in four bytes. -/
def revision (fr : List Byte) : List Byte :=
  let cs := lastN 4 (fr.filter graphic)
  zeros (4 - cs.length) ++ cs

/-- The 36 bytes of standard INQUIRY data: connected direct access block device, SPC-4, response data format 2,
31 additional bytes, PROTECT, CMDQUE, vendor "NVMe", product = first 16 bytes of the model number (ctrl 24-63),
revision from the firmware revision (ctrl 64-71). -/
def standardInquiry (ns ctrl : List Byte) : List Byte :=
  [0x00, 0x00, 0x06, 0x02, 0x1f, if protection ns then 0x01 else 0x00, 0x00, 0x02]
    ++ ascii "NVMe    " ++ slice ctrl 24 16 ++ revision (slice ctrl 64 8)

/-! ## Vital product data -/

/-- The pages listed by VPD page 00h. -/
def vpdPages : List Byte := [0x00, 0x80, 0x83, 0x86, 0xb0, 0xb1, 0xb2]

/-- The head of a VPD page: device type 0, page code, big endian length of the rest. -/
def vpdHead (code len : Nat) : List Byte := le 1 0 ++ le 1 code ++ beBytes 2 len

/-- Lower case hexadecimal digits of `n`, `k` of them, most significant first. -/
def hex (k n : Nat) : List Byte :=
  (List.range k).map fun i => (ascii "0123456789abcdef").getD (n / 16 ^ (k - 1 - i) % 16) 0

/-- Sixteen digits in groups of four, separated by underscores. -/
def groups (d : List Byte) : List Byte :=
  slice d 0 4 ++ ascii "_" ++ slice d 4 4 ++ ascii "_" ++ slice d 8 4 ++ ascii "_" ++ slice d 12 4

/-- The serial number string of a namespace: from the NGUID (as two 64-bit numbers) if it is not zero, else from
the EUI-64 if it is not zero, else serial number (ctrl 4-23), underscore and namespace id. -/
def serial (ns ctrl : List Byte) (nsid : Nat) : List Byte :=
  if nguid ns ≠ zeros 16 then
    groups (hex 16 (leAt ns 104 8)) ++ ascii "_" ++ groups (hex 16 (leAt ns 112 8)) ++ ascii "."
  else if eui64 ns ≠ zeros 8 then groups (hex 16 (leAt ns 120 8)) ++ ascii "."
  else slice ctrl 4 20 ++ ascii "_" ++ hex 8 nsid ++ ascii "."

/-- VPD page 80h: page length 40, 20 or 30, the serial number in a field of 40 bytes. -/
def serialPage (ns ctrl : List Byte) (nsid : Nat) : List Byte :=
  let s := serial ns ctrl nsid
  vpdHead 0x80 s.length ++ (s ++ zeros (40 - s.length))

/-- The identifier reported by VPD page 83h: the NGUID if it is not zero, else the EUI-64 if it is not zero. -/
def identifier (ns : List Byte) : Option (List Byte) :=
  if nguid ns ≠ zeros 16 then some (nguid ns) else if eui64 ns ≠ zeros 8 then some (eui64 ns) else none

/-- The designator of VPD page 83h: binary (1), EUI-64 based (2), associated with the logical unit, its length,
the identifier. -/
def designator (id : List Byte) : List Byte := [0x01, 0x02, 0x00] ++ le 1 id.length ++ id

/-- The supported protection types in the encoding of the SPT field (SPC-4 table "SPT field"), `none`: no type
supported. -/
def spt (t1 t2 t3 : Bool) : Option Nat :=
  match t1, t2, t3 with
  | true, false, false => some 0b000
  | true, true, false => some 0b001
  | false, true, false => some 0b010
  | true, false, true => some 0b011
  | false, false, true => some 0b100
  | false, true, true => some 0b101
  | true, true, true => some 0b111
  | false, false, false => none

/-- Bytes 4-13 of VPD page 86h: microcode activation 2, SPT, GRD_CHK, APP_CHK, REF_CHK (all three set if
protection is enabled); UASK_SUP; V_SUP; LUICLR. -/
def extendedBody (ns ctrl : List Byte) (spt : Nat) : List Byte :=
  le 1 (2 ^ 6 * 2 + 2 ^ 3 * spt + 7 * (protection ns).toNat)
    ++ [0x20] ++ le 1 (writeCache ctrl).toNat ++ [0x01] ++ zeros 6

/-- The maximum transfer length in blocks: 2^MDTS, 0 (no limit) if MDTS is 0, at most 2^16. -/
def maxTransfer (ctrl : List Byte) : Nat := if mdts ctrl = 0 then 0 else 2 ^ min (mdts ctrl) 16

/-- Bytes 4-63 of VPD page B0h: maximum compare and write length (byte 5), maximum transfer length (bytes 8-11),
maximum unmap LBA count (20-23) and maximum unmap descriptor count (24-27); everything else zero. -/
def blockLimitsBody (ctrl : List Byte) : List Byte :=
  [0x00] ++ le 1 (if fusedCompareWrite ctrl then min (maxTransfer ctrl) 255 else 0) ++ zeros 2
    ++ beBytes 4 (maxTransfer ctrl) ++ zeros 8
    ++ beBytes 4 (if deallocates ctrl then 1 else 0) ++ beBytes 4 (if deallocates ctrl then 256 else 0) ++ zeros 36

/-- Provisioning type: 2 thin, 1 resource, 0 full (or not reported). -/
def provisioningType (ns ctrl : List Byte) : Nat :=
  if deallocates ctrl then if thin ns then 2 else 1 else 0

/-- VPD page B2h: LBPU (bit 7) and LBPRZ = 1 (bit 2) of byte 5, provisioning type in byte 6. -/
def provisioningPage (ns ctrl : List Byte) : List Byte :=
  vpdHead 0xb2 4 ++ [0x00, if deallocates ctrl then 0x84 else 0x00] ++ le 1 (provisioningType ns ctrl) ++ [0x00]

/-! ## READ CAPACITY(10), REPORT LUNS, REQUEST SENSE -/

/-- READ CAPACITY(10) data: an address and the block length. -/
def capacity (lba blockLen : Nat) : List Byte := beBytes 4 lba ++ beBytes 4 blockLen

/-- The namespace ids in an Identify active namespace list: up to the first zero, at most 1024. -/
def nsids (page : List Byte) : List Nat :=
  ((List.range 1024).map fun i => leAt page (4 * i) 4).takeWhile (· ≠ 0)

/-- REPORT LUNS data: length of the list in bytes, four reserved bytes, the LUNs. -/
def lunList (luns : List Nat) : List Byte :=
  beBytes 4 (8 * luns.length) ++ zeros 4 ++ (luns.map (beBytes 8)).flatten

/-- Sense data for "no sense": descriptor format (8 bytes) or fixed format (18 bytes). -/
def noSense (descriptor : Bool) : List Byte :=
  if descriptor then 0x72 :: zeros 7 else 0x70 :: zeros 17

/-! ## MODE SENSE(6) -/

/-- As many of the structures, from the first on, as fit into `len` bytes. -/
def fitting : Nat → List (List Byte) → List Byte
  | _, [] => []
  | len, s :: ss => if s.length ≤ len then s ++ fitting (len - s.length) ss else []

/-- The short LBA block descriptor: number of blocks, block length. -/
def shortDescriptor (ns : List Byte) : List Byte :=
  beBytes 4 (ncap ns) ++ [0x00] ++ beBytes 3 (2 ^ lbads ns)

/-- The caching mode page: IC = 1 and the given WCE. -/
def cachingPage (wce : Bool) : List Byte := [0x08, 0x12] ++ le 1 (0x80 + 4 * wce.toNat) ++ zeros 17

/-- The control mode page: GLTSD, D_SENSE, QERR = 1, TAS, busy timeout unlimited. -/
def controlPage : List Byte := [0x0a, 0x0a, 0x06, 0x02, 0x00, 0x40, 0x00, 0x00, 0xff, 0xff, 0x00, 0x00]

/-- The power condition mode page. -/
def powerPage : List Byte := [0x1a, 0x26] ++ zeros 38

/-- The mode pages for a page code. -/
def pagesFor (page : Nat) (wce : Bool) : List (List Byte) :=
  if page = 0x08 then [cachingPage wce]
  else if page = 0x0a then [controlPage]
  else if page = 0x1a then [powerPage]
  else [cachingPage wce, controlPage, powerPage]

/-- The structures of the MODE SENSE(6) answer: the header (mode data length, medium type, DPOFUA, block
descriptor length), the block descriptor unless `ns` is `none` (DBD = 1), the mode pages.  The mode data length
counts all bytes after the first one. -/
def modeStructures (ns : Option (List Byte)) (page : Nat) (wce : Bool) : List (List Byte) :=
  let rest := (ns.map shortDescriptor).toList ++ pagesFor page wce
  let bdl : Nat := if ns.isSome then 8 else 0
  (le 1 (3 + rest.flatten.length) ++ [0x00, 0x10] ++ le 1 bdl) :: rest

end Scsi2Nvme.Spec
