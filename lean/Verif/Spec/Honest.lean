import Verif.Spec.Lossy
/-!
# Specification: a device which may fail but does not lie
-/

namespace Scsi2Nvme.Spec
open Scsi2Nvme Engine

/-- A device which may fail in any way (`Lossy`) but reports success for an I/O Read or Write only if it executed the command: after a
successful Read (02h) the memory at the data pointer holds the blocks, after a successful Write (01h) the blocks hold what was there. -/
structure Honest {σ : Type} (D : Device σ) (disks : σ → Disk) : Prop extends Lossy D disks where
  read : ∀ s m sub, sub.buffer.toNat = leAt sub.cmd 24 8 → sub.is_admin = false → byte sub.cmd 0 = 0x02 → cplOk (D s m sub).2.2 →
    (D s m sub).2.1.read (leAt sub.cmd 24 8) (4096 * (leAt sub.cmd 48 2 + 1)) =
      some ((disks s).read (leAt sub.cmd 4 4) (4096 * leAt sub.cmd 40 8) (4096 * (leAt sub.cmd 48 2 + 1)))
  write : ∀ s m sub, sub.buffer.toNat = leAt sub.cmd 24 8 → sub.is_admin = false → byte sub.cmd 0 = 0x01 → cplOk (D s m sub).2.2 →
    ∃ bs, m.read (leAt sub.cmd 24 8) (4096 * (leAt sub.cmd 48 2 + 1)) = some bs ∧
      disks (D s m sub).1 = (disks s).write (leAt sub.cmd 4 4) (4096 * leAt sub.cmd 40 8) bs

/-- What the user of an array of disks (indexed by LUN) can rely on although the device fails.  A READ answered with GOOD is complete and
correct, and the blocks are in the data buffer; a WRITE answered with GOOD is complete and correct, and the blocks are replaced by the
data; a WRITE answered otherwise may have replaced some of the bytes it covers, and nothing else; no other command changes the disks. -/
inductive Trusted (d : Disk) (q : Request) (r : ScsiToNvmeResponse) (m : Mem) : Disk → Prop
  | read {lba n} (op : isRead (byte q.cdb 0)) (h : q.asks (lba + n) lba n) (good : r.return_code = 0) (len : r.alloc_len = 4096 * n)
      (data : m.read q.data (4096 * n) = some (d.read q.lun.toNat (4096 * lba) (4096 * n))) : Trusted d q r m d
  | write {lba n bs} (op : isWrite (byte q.cdb 0)) (h : q.asks (lba + n) lba n) (good : r.return_code = 0)
      (data : q.mem.read q.data (4096 * n) = some bs) : Trusted d q r m (d.write q.lun.toNat (4096 * lba) bs)
  | unread (op : isRead (byte q.cdb 0)) (bad : r.return_code ≠ 0) : Trusted d q r m d
  | torn {d'} (op : isWrite (byte q.cdb 0)) (bad : r.return_code ≠ 0)
      (h : ∀ k a, d' k a = d k a ∨ q.carries q.mem k a (d' k a)) : Trusted d q r m d'
  | other (op : ¬ isRead (byte q.cdb 0) ∧ ¬ isWrite (byte q.cdb 0)) : Trusted d q r m d

/-- The calls of `order`, executed one after the other in this order, answered by `resp`, change the disks from `d` to `d'`, each as
`Trusted` says; `m` is the memory at the end. -/
inductive TrustedAll {ι : Type} (q : ι → Request) (resp : ι → ScsiToNvmeResponse) (m : Mem) : Disk → List ι → Disk → Prop
  | nil {d} : TrustedAll q resp m d [] d
  | cons {d i d' is d''} (h : Trusted d (q i) (resp i) m d') (t : TrustedAll q resp m d' is d'') : TrustedAll q resp m d (i :: is) d''

/-- The request is not a complete and correct WRITE to any of the blocks `lba … lba+n-1` of LUN `lun`. -/
def Request.leaves (q : Request) (lun lba n : Nat) : Prop :=
  isWrite (byte q.cdb 0) → q.lun.toNat = lun → ∀ l k, q.asks (l + k) l k → l + k ≤ lba ∨ lba + n ≤ l

end Scsi2Nvme.Spec
