/-!
# Watchdog of the ESP-IDF port

Models `extras/porting/esp-idf/esp_idf_watchdog.cpp` 27-61 and the part of
`SuplaDeviceClass::status` that runs the action it waits for
(`src/SuplaDevice.cpp` 63-87).

The chip is not part of the repository: it restarts the device when the time
since it was last fed reaches its timeout.  Whether a new timeout starts that time
anew depends on the version of ESP-IDF; here it is a parameter.
-/

namespace Verif.Watchdog

/-- The device, the element and the chip: the status (`SuplaDevice.h` 231), the
mode (`config.h`, `DeviceMode`), `lastTimetoutMs` (`esp_idf_watchdog.h` 37), the
timeout in the chip, the time since it was fed, and whether it has restarted
the device. -/
structure Dog where
  status : Int
  mode : Nat
  last : Nat
  chip : Nat
  idle : Nat
  reset : Bool
  deriving DecidableEq, Repr

/-- `reconfigureTimeoutMs`, `esp_idf_watchdog.cpp` 49-61. -/
def reconfigure (anew : Bool) (ms : Nat) (d : Dog) : Dog :=
  if d.last = ms then d else { d with last := ms, chip := ms, idle := if anew then 0 else d.idle }

/-- `handleAction`, `esp_idf_watchdog.cpp` 40-47: STATUS_SW_DOWNLOAD is 50
(`SuplaDevice.h` 64), DEVICE_MODE_TEST is 1. -/
def handle (anew : Bool) (d : Dog) : Dog :=
  if d.status = 50 ∨ d.mode = 1 then reconfigure anew 300000 d else reconfigure anew 60000 d

/-- When `status` changes nothing, `SuplaDevice.cpp` 63-76: config mode (40) and waiting for the
button in test (70) are left only for 41, 22, 33 and 80 (63-72); the same status
again, or registration in progress (10) after a greater one, changes nothing
(74-76). -/
def refused (old new : Int) : Prop :=
  ((old = 40 ∨ old = 70) ∧ new ≠ 41 ∧ new ≠ 22 ∧ new ≠ 33 ∧ new ≠ 80) ∨ old = new ∨
    (new = 10 ∧ old > 10)

instance (old new : Int) : Decidable (refused old new) := by unfold refused; infer_instance

/-- `status` with the action it runs, `SuplaDevice.cpp` 74-87. -/
def setStatus (anew : Bool) (n : Int) (d : Dog) : Dog :=
  if refused d.status n then d else handle anew { d with status := n }

/-- What happens to the device: `status(n)`; the mode is set (`SuplaDevice.cpp`
264, 329, 507, 619, 749, 791, 1138); the loop comes to the element
(`esp_idf_watchdog.cpp` 36-38); time passes.  Simplification: the action run
without a new status when the timeout of the config mode is switched off
(`SuplaDevice.cpp` 995) is left out. -/
inductive Op where
  | status (n : Int)
  | mode (m : Nat)
  | iterate
  | pass (ms : Nat)
  deriving DecidableEq, Repr

/-- One of these. -/
def step (anew : Bool) (d : Dog) : Op → Dog
  | .status n => setStatus anew n d
  | .mode m => { d with mode := m }
  | .iterate => { d with idle := 0 }
  | .pass ms => { d with idle := d.idle + ms, reset := d.reset || decide (d.chip ≤ d.idle + ms) }

/-- Any number of them. -/
def run (anew : Bool) (d : Dog) (ops : List Op) : Dog := ops.foldl (step anew) d

/-- After the constructor, `esp_idf_watchdog.cpp` 27-34: timeout of 60 s; status
unknown. -/
def fresh : Dog := { status := -1, mode := 0, last := 60000, chip := 60000, idle := 0, reset := false }

end Verif.Watchdog
