import Verif.Model.Basic
/-!
# Model of loading and unloading the kernel module

third_party/e2e/scsi_mock_module.c:77-196 and `nvme_driver_init` (third_party/e2e/nvme_driver.c:146-178).  The
functions of the kernel are parameters: whether they succeed is arbitrary (`Answers`).  What is acquired and released
is recorded in a ghost log.
-/

namespace Scsi2Nvme.Lifecycle

/-- Things of the kernel which are acquired and have to be released by third_party/e2e/scsi_mock_module.c:101-196 and
nvme_driver.c:146-178. -/
inductive Res where
  /-- the handle returned by `blkdev_get_by_path` -/
  | blockDevice
  /-- `root_device_register` -/
  | rootDevice
  /-- `bus_register` -/
  | bus
  /-- `driver_register` -/
  | driver
  /-- the reference to `pseudo_adapter` which `device_register` takes even if it fails (see its documentation in the
  kernel: it has to be given up with `put_device`) -/
  | deviceRef
  /-- `pseudo_adapter` added to the device hierarchy -/
  | device
  /-- `scsi_host_alloc` -/
  | host
  /-- `scsi_add_host` -/
  | hostAdded
deriving DecidableEq, Repr

/-- An entry of the ghost log (what scsi_mock_module.c:101-196 acquires and releases). -/
inductive Ev where
  | acq (r : Res)
  | rel (r : Res)
deriving DecidableEq, Repr

/-- What the functions of the kernel called in third_party/e2e/scsi_mock_module.c:101-196 and nvme_driver.c:146-178 answer. -/
structure Answers where
  /-- `blkdev_get_by_path` does not return an error pointer -/
  openDev : Bool
  /-- `bdev->bd_disk` is neither null nor an error pointer -/
  disk : Bool
  /-- `bdev->bd_disk->private_data` is neither null nor an error pointer -/
  nsOk : Bool
  /-- `root_device_register` does not return an error pointer -/
  root : Bool
  /-- result of `bus_register` -/
  bus : Int
  /-- result of `driver_register` -/
  driver : Int
  /-- result of `device_register`, as far as adding the device goes -/
  device : Int
  /-- `scsi_host_alloc` does not return null -/
  hostAlloc : Bool
  /-- result of `scsi_add_host` -/
  addHost : Int

/-- The state of the module: the log (latest first), the variable `registered` (scsi_mock_module.c:99), whether the
driver data of `pseudo_adapter` is set, whether the kernel considers it bound to the driver, and whether `ns`
(nvme_driver.c:25) points to a namespace. -/
structure Sys where
  log : List Ev := []
  registered : Nat := 0
  drvdata : Bool := false
  bound : Bool := false
  ns : Bool := false

/-- Record an acquisition (ghost; scsi_mock_module.c:101-196). -/
def Sys.acq (s : Sys) (r : Res) : Sys := { s with log := .acq r :: s.log }
/-- Record a release (ghost; scsi_mock_module.c:101-196). -/
def Sys.rel (s : Sys) (r : Res) : Sys := { s with log := .rel r :: s.log }

/-- `nvme_driver_init`: third_party/e2e/nvme_driver.c:146-178 -/
def nvme_driver_init (A : Answers) (s : Sys) : Int × Sys :=
  if A.openDev = false then (-1, s)
  else
    let s := s.acq .blockDevice
    if A.disk = false then (-1, s)
    else if A.nsOk = false then (-1, s)
    else (0, { s with ns := true })

/-- `bus_driver_probe`: third_party/e2e/scsi_mock_module.c:101-127.  `adapter`: is `dev == &pseudo_adapter`? -/
def bus_driver_probe (A : Answers) (adapter : Bool) (s : Sys) : Int × Sys :=
  if adapter = false ∨ s.registered > 0 then (-1, s)
  else if A.hostAlloc = false then (-19, s)
  else
    let s := s.acq .host
    if A.addHost ≠ 0 then (A.addHost, s.rel .host)
    else (0, { s.acq .hostAdded with drvdata := true, registered := 1 })

/-- `bus_remove`: third_party/e2e/scsi_mock_module.c:129-134 -/
def bus_remove (s : Sys) : Sys := (s.rel .hostAdded).rel .host

/-- What the kernel does when a device is to be bound to the driver of its bus (`really_probe`): it is bound if the
probe function of the bus returns 0.  The driver data is cleared if it does not.  Kernel code, called from
scsi_mock_module.c:149 (`device_register`). -/
def kernelBind (A : Answers) (s : Sys) : Sys :=
  if s.bound then s
  else
    let r := bus_driver_probe A true s
    if r.1 = 0 then { r.2 with bound := true } else { r.2 with drvdata := false }

/-- What the kernel does to release a device from its driver (`__device_release_driver`): kernel code, called from
scsi_mock_module.c:190-196 (`device_unregister`). -/
def kernelUnbind (s : Sys) : Sys :=
  if s.bound then { bus_remove s with bound := false, drvdata := false } else s

/-- `device_register` of the kernel, with the driver already registered and matching (`bus_match` returns 1,
scsi_mock_module.c:95-97): a failed probe does not make it fail. -/
def device_register (A : Answers) (s : Sys) : Int × Sys :=
  let s := s.acq .deviceRef
  if A.device ≠ 0 then (A.device, s) else (0, kernelBind A (s.acq .device))

/-- `device_unregister` of the kernel, called from scsi_mock_module.c:190-196. -/
def device_unregister (s : Sys) : Sys := ((kernelUnbind s).rel .device).rel .deviceRef

/-- `scsi_mock_init`: third_party/e2e/scsi_mock_module.c:152-188, with `scsi_mock_add_device` (143-150).  The static
variables have their initial values when the module is loaded (only the log goes on).  `SetEngineCallbacks` is in
`Model/Module.lean`. -/
def scsi_mock_init (A : Answers) (log : List Ev) : Int × Sys :=
  let s : Sys := { log := log }
  let s := (nvme_driver_init A s).2
  if A.root = false then (-22, s)
  else
    let s := s.acq .rootDevice
    if A.bus ≠ 0 then (-22, s.rel .rootDevice)
    else
      let s := s.acq .bus
      if A.driver ≠ 0 then (-22, (s.rel .rootDevice).rel .bus)
      else
        let s := s.acq .driver
        let r := device_register A s
        if r.1 ≠ 0 then (-22, ((r.2.rel .rootDevice).rel .bus).rel .driver)
        else (0, r.2)

/-- `scsi_mock_exit`: third_party/e2e/scsi_mock_module.c:190-196 -/
def scsi_mock_exit (s : Sys) : Sys :=
  (((device_unregister s).rel .driver).rel .bus).rel .rootDevice

end Scsi2Nvme.Lifecycle
