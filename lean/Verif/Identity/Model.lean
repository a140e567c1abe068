/-!
# Identity of the device: GUID and AuthKey

Model of `SuplaDeviceClass::loadDeviceConfig` (src/SuplaDevice.cpp, 584-616), the checks of `begin` (252-260), `resetToFactorySettings`
(1085-1096) and of the three implementations of `generateGuidAndAuthkey`: `NvsConfig` (extras/porting/esp-idf/nvs_config.cpp, 214-225),
`KeyValue` (src/supla/storage/key_value.cpp, 50-70; with LittleFS or SPIFFS below it) and `LinuxYamlConfig`
(extras/porting/linux/linux_yaml_config.cpp, 180-211 and 1538-1591).

A GUID and a key are numbers here, zero standing for sixteen zero bytes (`isArrayEmpty`). The power may fail between any two writes.
-/
namespace Verif.Identity

/-- A GUID with its key. -/
abbrev Pair := Nat × Nat

/-- What a store holds under `guid` and `authkey` (src/supla/storage/config.cpp, 155-161 and 284-290). -/
structure Kept where
  guid : Option Nat
  auth : Option Nat
deriving DecidableEq, Repr

/-- Nothing stored. -/
def Kept.none : Kept := ⟨Option.none, Option.none⟩

/-- The three stores: ESP-IDF's NVS, where each value is written when it is set; a list in memory that `commit` writes as one file
(key_value.cpp; littlefs_config.cpp 108-134: the new file replaces the old one when it is closed); the Linux port, with a file of its own for the identity. -/
inductive Kind
  | nvs
  | image
  | linux
deriving DecidableEq, Repr

/-- Single writes. `trunc`, `fileGuid`, `fileAuth` are the opening of `guid_auth.yaml` and the two parts of its content reaching the disk. -/
inductive Prim
  | setGuid (g : Nat)
  | setAuth (a : Nat)
  | commit
  | clear
  | trunc
  | fileGuid
  | fileAuth
deriving DecidableEq, Repr

/-- Memory and medium. -/
structure Mem where
  live : Kept
  dur : Kept
deriving DecidableEq, Repr

/-- One write to NVS (nvs_config.cpp 120-126, 209-212 and `setBlob`); `ok`: the medium accepts it. Results are not looked at. -/
def primNvs (ok : Bool) (m : Mem) : Prim → Mem
  | .setGuid g => if ok then ⟨{ m.dur with guid := some g }, { m.dur with guid := some g }⟩ else m
  | .setAuth a => if ok then ⟨{ m.dur with auth := some a }, { m.dur with auth := some a }⟩ else m
  | .clear => if ok then ⟨Kept.none, Kept.none⟩ else m
  | _ => m

/-- One write to a list of keys in memory (key_value.cpp 45-48; littlefs_config.cpp 108-134, 236-266); only `commit` reaches the medium. -/
def primImage (ok : Bool) (m : Mem) : Prim → Mem
  | .setGuid g => { m with live := { m.live with guid := some g } }
  | .setAuth a => { m with live := { m.live with auth := some a } }
  | .commit => if ok then { m with dur := m.live } else m
  | .clear => if ok then ⟨Kept.none, Kept.none⟩ else { m with live := Kept.none }
  | _ => m

/-- One write on Linux (linux_yaml_config.cpp 337-365, 1570-1591); `removeAll` and `commit` concern other files. -/
def primLinux (ok : Bool) (m : Mem) : Prim → Mem
  | .setGuid g => { m with live := { m.live with guid := some g } }
  | .setAuth a => { m with live := { m.live with auth := some a } }
  | .trunc => if ok then { m with dur := Kept.none } else m
  | .fileGuid => if ok then { m with dur := { m.dur with guid := m.live.guid } } else m
  | .fileAuth => if ok then { m with dur := { m.dur with auth := m.live.auth } } else m
  | _ => m

/-- One write. -/
def prim : Kind → Bool → Mem → Prim → Mem
  | .nvs => primNvs
  | .image => primImage
  | .linux => primLinux

/-- Writes one after another; the n-th is accepted if `ok n`. -/
def writes (k : Kind) (ok : Nat → Bool) : Nat → List Prim → Mem → Mem
  | _, [], m => m
  | n, p :: ps, m => writes k ok (n + 1) ps (prim k (ok n) m p)

/-- The writes of `generateGuidAndAuthkey`; on Linux a zero GUID or key is refused (198-205). -/
def genWrites (k : Kind) (r : Pair) : List Prim :=
  match k with
  | .linux => if r.1 = 0 ∨ r.2 = 0 then [] else [.setGuid r.1, .setAuth r.2, .trunc, .fileGuid, .fileAuth]
  | _ => [.setGuid r.1, .setAuth r.2, .commit]

/-- What it returns: on Linux whether the file was written, elsewhere always true. -/
def genResult (k : Kind) (r : Pair) (ok : Nat → Bool) : Bool :=
  match k with
  | .linux => !(decide (r.1 = 0 ∨ r.2 = 0)) && (ok 2 && ok 3 && ok 4)
  | _ => true

/-- The device: its medium and memory, the identity in `reg_dev`, whether `begin` succeeded, and every identity it ever ran with. -/
structure Dev where
  m : Mem
  reg : Pair
  running : Bool
  used : List Pair
deriving DecidableEq, Repr

/-- A new device. -/
def Dev.init : Dev := ⟨⟨Kept.none, Kept.none⟩, (0, 0), false, []⟩

/-- What the store holds, put over what `reg_dev` had (586-597, 602-607). -/
def loaded (l : Kept) (old : Pair) : Pair := (l.guid.getD old.1, l.auth.getD old.2)

/-- The checks of `begin` (252-260). -/
def checked (d : Dev) : Dev :=
  if d.reg.1 = 0 ∨ d.reg.2 = 0 then { d with running := false } else { d with running := true, used := d.used ++ [d.reg] }

/-- Writes up to a power cut. -/
def upTo (cut : Option Nat) (ps : List Prim) : List Prim :=
  match cut with
  | none => ps
  | some c => ps.take c

/-- Switching on: the store is read; if the GUID or the key is missing both are generated (599-616). `r`: what the random generator gives. -/
def start (k : Kind) (r : Pair) (ok : Nat → Bool) (cut : Option Nat) (d : Dev) : Dev :=
  let l := d.m.dur
  if l.guid.isSome && l.auth.isSome then checked { d with m := ⟨l, l⟩, reg := loaded l (0, 0) }
  else
    let m := writes k ok 0 (upTo cut (genWrites k r)) ⟨l, l⟩
    if cut.isSome then { d with m := m, reg := loaded l (0, 0), running := false }
    else checked { d with m := m, reg := if genResult k r ok then loaded m.live (loaded l (0, 0)) else loaded l (0, 0) }

/-- The writes of a factory reset (1091-1095; `initDefaultDeviceConfig` writes other keys). -/
def resetWrites (reg : Pair) : List Prim := [.clear, .setGuid reg.1, .setAuth reg.2, .commit]

/-- Factory reset of a running device. -/
def reset (k : Kind) (ok : Nat → Bool) (cut : Option Nat) (d : Dev) : Dev :=
  if d.running then { d with m := writes k ok 0 (upTo cut (resetWrites d.reg)) d.m, running := !cut.isSome } else d

/-- Any other setting is saved by a running device. -/
def save (k : Kind) (ok : Bool) (d : Dev) : Dev := if d.running then { d with m := prim k ok d.m .commit } else d

/-- What happens to a device. A power cut of a running device is the next `start`. -/
inductive Op
  | start (r : Pair) (ok : Nat → Bool) (cut : Option Nat)
  | reset (ok : Nat → Bool) (cut : Option Nat)
  | save (ok : Bool)

/-- One event. -/
def step (k : Kind) (d : Dev) : Op → Dev
  | .start r ok cut => start k r ok cut d
  | .reset ok cut => reset k ok cut d
  | .save ok => save k ok d

/-- A history. -/
def run (k : Kind) (ops : List Op) (d : Dev) : Dev := ops.foldl (step k) d

/-- Linux: the identity is what a generator yields from a seed, the low 32 bits of the clock (184-196). -/
def linuxMade (mt : Nat → Pair) (clock : Nat) : Pair := mt (clock % 2 ^ 32)

end Verif.Identity
