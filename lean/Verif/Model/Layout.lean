import Lean
import Verif.Model.Basic
/-!
# Packed bit-field structures

`lib/scsi.h` and `third_party/spdk/nvme.h` describe wire formats as `ABSL_ATTRIBUTE_PACKED` structures of
bit-fields.  On the x86-64 GCC ABI the fields are allocated without padding, least significant bit
first, in little-endian byte order.  `packed_struct` declares such a structure from the list of its
fields and widths (in bits) and derives its byte image (`toBytes`), its decoder (`ofBytes`) and its
size; `packed_layout` only derives the bit offsets (used for the 4096-byte identify structures, which
are read in place).
-/

namespace Scsi2Nvme

/-- A bit-field of width `w` at bit offset `off` (of the packed structures of lib/scsi.h and third_party/spdk/nvme.h). -/
structure Fld (w : Nat) where
  off : Nat

/-- Value of a bit-field in the byte image of a structure (of lib/scsi.h, third_party/spdk/nvme.h). -/
def getF (bs : List Byte) (f : Fld w) : BitVec w :=
  BitVec.ofNat w (leNat bs / 2 ^ f.off)

/-- Byte image of consecutive bit-fields `(width, value)`; `acc` holds the `nb < 8` bits of a started
byte (structures of lib/scsi.h, third_party/spdk/nvme.h). -/
def packBits (acc nb : Nat) : List (Nat × Nat) → List Byte
  | [] => []
  | (w, v) :: fs =>
    leBytes ((nb + w) / 8) (acc + v * 2 ^ nb)
      ++ packBits ((acc + v * 2 ^ nb) / 256 ^ ((nb + w) / 8)) ((nb + w) % 8) fs

open Lean Elab Command in
/-- Elaborate a command given as source text (machinery, models nothing). -/
def elabSrc (src : String) : CommandElabM Unit := do
  match Parser.runParserCategory (← getEnv) `command src with
  | .ok stx => elabCommand stx
  | .error e => throwError "{e}\n{src}"

open Lean Elab Command in
/-- `packed_struct Name where f1 : w1, f2 : w2, …` declares the structure `Name` (all fields default to
zero, as in a designated initialiser), `Name.toBytes`, `Name.ofBytes` and `Name.size` (in bytes). -/
elab doc:(docComment)? "packed_struct " n:ident " where "
    fs:sepBy1(group(ident ":" num), ",", ", ", allowTrailingSep) : command => do
  let mut off := 0
  let mut flds := ""
  let mut elems : List String := []
  let mut insts : List String := []
  for f in fs.getElems do
    let i := toString f.raw[0].getId
    let w := (⟨f.raw[2]⟩ : NumLit).getNat
    flds := flds ++ s!"  {i} : BitVec {w} := 0\n"
    elems := s!"({w}, x.{i}.toNat)" :: elems
    insts := s!"{i} := getF bs ⟨{off}⟩" :: insts
    off := off + w
  let name := toString n.getId
  let d := match doc with
    | some d => "/-- " ++ d.getDocString ++ "-/\n"
    | none => ""
  elabSrc s!"{d}structure {name} where\n{flds}deriving DecidableEq, Repr\n"
  elabSrc s!"def {name}.toBytes (x : {name}) : List Byte := packBits 0 0 [{", ".intercalate elems.reverse}]"
  elabSrc s!"def {name}.ofBytes (bs : List Byte) : {name} := \{ {", ".intercalate insts.reverse} }"
  elabSrc s!"def {name}.size : Nat := {off / 8}"

open Lean Elab Command in
/-- `packed_layout Name where f1 : w1, …` declares the bit-fields `Name.f1 : Fld w1`, … at their offsets. -/
elab (docComment)? "packed_layout " n:ident " where "
    fs:sepBy1(group(ident ":" num), ",", ", ", allowTrailingSep) : command => do
  let mut off := 0
  let name := toString n.getId
  for f in fs.getElems do
    let i := toString f.raw[0].getId
    let w := (⟨f.raw[2]⟩ : NumLit).getNat
    elabSrc s!"def {name}.{i} : Fld {w} := ⟨{off}⟩"
    off := off + w
  elabSrc s!"def {name}.size : Nat := {off / 8}"

end Scsi2Nvme
