import Verif.Model.Scsi
import Verif.Model.Nvme
/-!
# Model of lib/translator/common.h and lib/translator/common.cc
-/

namespace Scsi2Nvme

/-! ## Byte order -/

/-- Byte order of the machine the code runs on: what `IsLittleEndian` finds out, lib/translator/common.cc:64-70. -/
inductive Endian where
  | little
  | big
deriving DecidableEq, Repr

/-- `bswap_16/32/64` of <byteswap.h>: reverses the `n` bytes of a value. -/
def bswap (n : Nat) (v : BitVec (8 * n)) : BitVec (8 * n) :=
  BitVec.ofNat (8 * n) (leNat (leBytes n v.toNat).reverse)

/-- `bswap_16`, used in lib/translator/common.cc:88 -/
def bswap_16 (v : U16) : U16 := bswap 2 v
/-- `bswap_32`, used in lib/translator/common.cc:96 -/
def bswap_32 (v : U32) : U32 := bswap 4 v
/-- `bswap_64`, used in lib/translator/common.cc:104 -/
def bswap_64 (v : U64) : U64 := bswap 8 v

/-- `htons`/`ntohs` of <netinet/in.h> on a machine of byte order `e`. -/
def htonsE (e : Endian) (v : U16) : U16 :=
  match e with
  | .little => bswap_16 v
  | .big => v

/-- `htonl`/`ntohl` of <netinet/in.h> on a machine of byte order `e`. -/
def htonlE (e : Endian) (v : U32) : U32 :=
  match e with
  | .little => bswap_32 v
  | .big => v

/-- The bytes of an `n`-byte integer object in memory, lowest address first, on a machine of byte order `e`
(the object representation which lib/translator/common.cc:72-106 is about). -/
def memImage (e : Endian) (n v : Nat) : List Byte :=
  match e with
  | .little => leBytes n v
  | .big => (leBytes n v).reverse

/-- `IsLittleEndian`: is the first byte of the `uint32_t` object 42 equal to 42?
lib/translator/common.cc:64-70 -/
def isLittleEndian (e : Endian) : Bool := (memImage e 4 42).headD 0 == 42

/-- `htonll`, also used as `ntohll` (`#define ntohll htonll` in common.h).
lib/translator/common.cc:72-82 -/
def htonllE (e : Endian) (value : U64) : U64 :=
  if isLittleEndian e then
    let high_bits := htonlE e ((value >>> 32).setWidth 32)
    let low_bits := htonlE e ((value &&& 0xFFFFFFFF#64).setWidth 32)
    (low_bits.setWidth 64 <<< 32) ||| high_bits.setWidth 64
  else value

/-- `htols`, also used as `ltohs`.  lib/translator/common.cc:84-90, common.h:100 -/
def htolsE (e : Endian) (value : U16) : U16 :=
  if isLittleEndian e then value else bswap_16 value

/-- `htoll`, also used as `ltohl`.  lib/translator/common.cc:92-98, common.h:101 -/
def htollE (e : Endian) (value : U32) : U32 :=
  if isLittleEndian e then value else bswap_32 value

/-- `htolll`, also used as `ltohll`.  lib/translator/common.cc:100-106, common.h:102 -/
def htolllE (e : Endian) (value : U64) : U64 :=
  if isLittleEndian e then value else bswap_64 value

/-- The machine modelled by the translators: little endian (the packed bit-field layout of scsi.h and
nvme.h is the one of a little endian ABI). -/
def host : Endian := .little

/-- `ntohs` on the modelled machine -/
def ntohs (v : U16) : U16 := htonsE host v
/-- `htons` on the modelled machine -/
def htons (v : U16) : U16 := htonsE host v
/-- `ntohl` on the modelled machine -/
def ntohl (v : U32) : U32 := htonlE host v
/-- `htonl` on the modelled machine -/
def htonl (v : U32) : U32 := htonlE host v
/-- `ntohll` on the modelled machine -/
def ntohll (v : U64) : U64 := htonllE host v
/-- `htonll` on the modelled machine -/
def htonll (v : U64) : U64 := htonllE host v
/-- `htols`/`ltohs` on the modelled machine -/
def htols (v : U16) : U16 := htolsE host v
/-- `htoll`/`ltohl` on the modelled machine -/
def htoll (v : U32) : U32 := htollE host v
/-- `htolll`/`ltohll` on the modelled machine -/
def htolll (v : U64) : U64 := htolllE host v

/-! ## Status, wrappers, allocations -/

/-- lib/translator/common.h:36-42 -/
inductive StatusCode where
  | kSuccess
  | kUninitialized
  | kInvalidInput
  | kNoTranslation
  | kFailure
deriving DecidableEq, Repr

/-- lib/translator/common.h:56-60 -/
structure NvmeCmdWrapper where
  cmd : Nvme.GenericQueueEntryCmd
  buffer_len : U32
  is_admin : Bool
deriving DecidableEq, Repr

/-- lib/translator/common.h:44-54 -/
structure Allocation where
  data_addr : U64 := 0
  data_page_count : U16 := 0
  mdata_addr : U64 := 0
  mdata_page_count : U16 := 0
deriving DecidableEq, Repr

/-- lib/translator/common.h:151-156.  The enumeration values are represented by their bytes. -/
structure ScsiStatus where
  status : Byte
  sense_key : Byte
  asc : Byte
  ascq : Byte
deriving DecidableEq, Repr

/-- `AllocPages`: lib/translator/common.cc:48-51.  Calls to a registered callback are recorded in the
ghost trace; without a callback the result is 0. -/
def AllocPages (E : Env) (page_size : U32) (count : U16) : M U64 := fun w =>
  match E.allocCb with
  | none => .ok (0, w)
  | some f =>
    let r := f w page_size count
    .ok (r.1, { mem := r.2, trace := .alloc page_size count r.1 :: w.trace })

/-- `DeallocPages`: lib/translator/common.cc:53-56. -/
def DeallocPages (E : Env) (pages_ptr : U64) (count : U16) : M Unit := fun w =>
  match E.deallocCb with
  | none => .ok ((), w)
  | some f => .ok ((), { mem := f w pages_ptr count, trace := .dealloc pages_ptr count :: w.trace })

/-- `Allocation::SetPages`: lib/translator/common.cc:108-128. -/
def Allocation.SetPages (E : Env) (a : Allocation) (page_size : U32)
    (data_page_count mdata_page_count : U16) : M (StatusCode × Allocation) :=
  if (data_page_count ≠ 0 ∧ a.data_addr ≠ 0) ∨ (mdata_page_count ≠ 0 ∧ a.mdata_addr ≠ 0) then
    pure (.kFailure, a)
  else do
    let da ← AllocPages E page_size data_page_count
    let ma ← AllocPages E page_size mdata_page_count
    let a' : Allocation :=
      { data_addr := da, data_page_count := data_page_count,
        mdata_addr := ma, mdata_page_count := mdata_page_count }
    if (data_page_count ≠ 0 ∧ da = 0) ∨ (mdata_page_count ≠ 0 ∧ ma = 0) then
      pure (.kFailure, a')
    else pure (.kSuccess, a')

/-! ## Spans -/

/-- `Span<uint8_t>`: lib/translator/common.h:107-131. -/
structure Span where
  ptr : Nat
  len : Nat
deriving DecidableEq, Repr

/-- The default constructed span: lib/translator/common.h:110. -/
def Span.null : Span := ⟨0, 0⟩

/-- Subtraction of two `size_t` values: it wraps around below zero (lib/translator/common.h:121-125). -/
def sizeSub (a b : Nat) : Nat := if b ≤ a then a - b else a + 2 ^ 64 - b

/-- `subspan(pos)` with the default length `npos`, and `subspan(pos, len)`:
lib/translator/common.h:121-125.  `none` is `npos`. -/
def Span.subspan (s : Span) (pos : Nat) (len : Option Nat := none) : Span :=
  if pos ≥ s.len then ⟨0, 0⟩
  else
    match len with
    | none => ⟨s.ptr + pos, sizeSub s.len pos⟩
    | some l => if l > sizeSub s.len pos then ⟨s.ptr + pos, sizeSub s.len pos⟩ else ⟨s.ptr + pos, l⟩

/-- `ReadValue` on bytes that were already fetched (the CDB snapshot): lib/translator/common.h:133-139.
`size` is `sizeof(T)`, `dec` the decoder of `T`. -/
def readValue (size : Nat) (dec : List Byte → α) (data : List Byte) : Option α :=
  if size > data.length then none else some (dec (data.take size))

/-- `ReadValue` on a span in memory: lib/translator/common.h:133-139. -/
def ReadValue (size : Nat) (dec : List Byte → α) (data : Span) : M (Option α) :=
  if size > data.len then pure none
  else do
    let bs ← load data.ptr size
    pure (some (dec bs))

/-- `WriteValue(data, out, num_bytes)`: lib/translator/common.h:141-148.  `bytes` is the byte image of
`data`, so `bytes.length = sizeof(T)`. -/
def WriteValue (bytes : List Byte) (out : Span) (num_bytes : Nat) : M Bool :=
  if num_bytes > out.len ∨ num_bytes > bytes.length then pure false
  else do
    store out.ptr (bytes.take num_bytes)
    pure true

/-- `WriteValue(data, out)` with the default `num_bytes = sizeof(T)`: lib/translator/common.h:141-148. -/
def WriteValue' (bytes : List Byte) (out : Span) : M Bool := WriteValue bytes out bytes.length

/-- `SafePointerCastRead<T>` / `SafePointerCastWrite<T>`: lib/translator/common.h:166-195.  All target
types are packed (alignment 1), so only the size test can fail; address 0 is `nullptr`.  The placement
`new T` of a POD type does not change the memory. -/
def SafePointerCast (size : Nat) (buf : Span) : Nat :=
  if buf.len < size then 0 else buf.ptr

/-- The object `dfsd` of `FillSenseBuffer` before its byte image is copied; its reserved bit-fields are
never assigned, `j` supplies their indeterminate contents.  lib/translator/common.cc:206-211 -/
def senseData (j : Nat → Byte) (s : ScsiStatus) : Scsi.DescriptorFormatSenseData :=
  { response_code := Scsi.SenseResponse.kCurrentDescriptorError.setWidth 7
    reserved_1 := (j 0).setWidth 1
    sense_key := s.sense_key.setWidth 4
    reserved_2 := (j 1).setWidth 4
    additional_sense_code := s.asc
    additional_sense_code_qualifier := s.ascq
    reserved_3 := (j 2 ++ j 3 ++ j 4 : BitVec 24)
    additional_sense_length := 0 }

/-- `FillSenseBuffer`: lib/translator/common.cc:202-217. -/
def FillSenseBuffer (E : Env) (sense_buffer : Span) (s : ScsiStatus) : M Bool := do
  let w ← M.get
  WriteValue' (senseData (E.junk w) s).toBytes sense_buffer

/-- `kNvmeVendorIdentification`: lib/translator/common.h:29-30 ("NVMe    "). -/
def kNvmeVendorIdentification : List Byte := [0x4e, 0x56, 0x4d, 0x65, 0x20, 0x20, 0x20, 0x20]

end Scsi2Nvme
