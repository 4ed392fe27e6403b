import Verif.Model.ModuleConcurrent
/-!
# Model of the abort handler, third_party/e2e/scsi_mock_module.c:77
-/

namespace Scsi2Nvme.Module
open Scsi2Nvme

/-- `SUCCESS` of the kernel's include/scsi/scsi.h (0x2002), returned in third_party/e2e/scsi_mock_module.c:77. -/
def SUCCESS : Nat := 0x2002

/-- `scsi_abort`, the `eh_abort_handler` of the host (third_party/e2e/scsi_mock_module.c:77, 88): called by the SCSI layer for a command
which takes too long, while `scsi_queuecommand` is somewhere (`ph`).  The second component is where it is then. -/
def scsi_abort (_cmd : ScsiCmnd) (ph : Phase) : Nat × Phase := (SUCCESS, ph)

end Scsi2Nvme.Module
