import Mathlib.Data.List.Basic

/-!
# DS18B20 thermometers on a 1-Wire bus (ESP-IDF)

Model of `/repo/extras/esp-idf/supla-ds18b20/esp_ds18b20.cpp` (cited as D) and of the "Reset assignement" box of
`ds18b20_parameters.cpp` (cited as P): probes found on the bus get assigned to thermometer channels, each channel
shows the temperature of its probe.

Simplified: one bus; channels without an address in the constructor; a configuration storage exists and what it holds
in memory is what the channels hold (it is written in the same steps, D 76, D 382), so only what was saved is kept
separately. Time is left out: a request of a measurement, the end of the conversion and the passes of the
channels come in any order. Temperatures are in 1/16 °C (12 bits), `none` is "not available".
-/

namespace Verif.Ds

/-- The eight bytes of the code of a probe: family, six bytes of serial number, CRC (`rom_code.bytes`). -/
abbrev Rom := List Nat

/-- The eight bytes of `address` of a channel, the code in reverse order (D 111-113). -/
abbrev Addr := List Nat

/-- No address. -/
def zeros : Addr := [0, 0, 0, 0, 0, 0, 0, 0]

/-- "Has an address": `address[0]` (D 70, 209, 318). -/
def assigned (a : Addr) : Bool := a.headD 0 ≠ 0

/-- 85 °C, what a probe gives that has not measured. -/
def powerOn : Int := 1360

/-- A channel. `log` is not in the program: what was read for the channel since the start, and of
which probe, newest first. -/
structure Ch where
  addr : Addr := zeros
  /-- `retryCounter`, `int8_t` -/
  retry : Int := 0
  /-- `lastValidValue` -/
  last : Option Int := none
  /-- the value of the channel -/
  shown : Option Int := none
  log : List (Rom × Option Int) := []
deriving DecidableEq, Repr

/-- The state: devices found (`devices`), which of them were read since the last request (`deviceTempRead`), whether a
measurement was requested and is ready, the channels, and the addresses that were saved. -/
structure S where
  devs : List Rom := []
  done : Nat → Bool := fun _ => false
  ready : Bool := false
  chans : List Ch := []
  flash : List Addr := []

/-- `MAX_DEVICES` -/
def maxDevices : Nat := 16

/-- `scanBus` (D 134-198): new devices are appended. `none`: with 16 devices in the table the loop of D 140 reads
beyond it; more than 16 new ones, or more than fit, are written beyond the arrays (D 162, 172). -/
def scan (present : List Rom) (s : S) : Option S :=
  if s.devs.length ≥ maxDevices then none
  else if s.devs.length + (present.filter fun r => !s.devs.contains r).length > maxDevices then none
  else some { s with devs := s.devs ++ present.filter fun r => !s.devs.contains r }

/-- Is the device the one of some channel? (D 91-105) -/
def taken (chans : List Ch) (r : Rom) : Bool := chans.any fun c => c.addr = r.reverse

/-- `assignAddressIfNeeded` with `assignAddress` (D 69-118). -/
def assign (c : Nat) (s : S) : S :=
  match s.chans[c]? with
  | none => s
  | some ch =>
    if assigned ch.addr then s
    else match s.devs.find? (fun r => !taken s.chans r) with
      | none => s
      | some r => { s with chans := s.chans.set c { ch with addr := r.reverse } }

/-- `getIndex` (D 208-230). -/
def getIndex (devs : List Rom) (a : Addr) : Option Nat :=
  if assigned a then devs.findIdx? (fun r => r.reverse = a) else none

/-- `int8_t` of a number. -/
def toI8 (x : Int) : Int := (x + 128) % 256 - 128

/-- What `getTemp` returns (D 240-253); `T` is what reading each probe gives now, `none` an error. -/
def getTemp (devs : List Rom) (T : Rom → Option Int) (a : Addr) : Option Int :=
  match getIndex devs a with
  | none => none
  | some i => T (devs.getD i [])

/-- Reading usable? (D 322) -/
def good : Option Int → Bool
  | none => false
  | some v => v ≠ powerOn

/-- `getValue` after the reading `v` of an assigned channel, and `setNewValue` with it (D 322-333, 312). -/
def take (v : Option Int) (ch : Ch) : Ch :=
  if good v then { ch with last := v, retry := 0, shown := v, log := (ch.addr.reverse, v) :: ch.log }
  else if toI8 (ch.retry + 1) > 3 then { ch with retry := toI8 (ch.retry + 1), shown := none, log := (ch.addr.reverse, v) :: ch.log }
  else { ch with retry := toI8 (ch.retry + 1), shown := ch.last, log := (ch.addr.reverse, v) :: ch.log }

/-- `getValue` (D 316-334) and `setNewValue` for channel `c`, with the flag that it was read (D 244). -/
def value (T : Rom → Option Int) (c : Nat) (s : S) : S :=
  match s.chans[c]? with
  | none => s
  | some ch =>
    if assigned ch.addr then
      { s with
        chans := s.chans.set c (take (getTemp s.devs T ch.addr) ch)
        done := match getIndex s.devs ch.addr with
          | none => s.done
          | some i => fun j => if j = i then true else s.done j }
    else { s with chans := s.chans.set c { ch with shown := none } }

/-- `isAlreadyRead` (D 232-238). -/
def alreadyRead (s : S) (a : Addr) : Bool :=
  match getIndex s.devs a with
  | none => false
  | some i => s.done i

/-- The second half of `iterateAlways` (D 308-313). -/
def pass (T : Rom → Option Int) (c : Nat) (s : S) : S :=
  match s.chans[c]? with
  | none => s
  | some ch => if s.ready && !alreadyRead s ch.addr then value T c (assign c s) else s

/-- `requestTemperatures` (D 120-132). -/
def request (present : List Rom) (s : S) : Option S :=
  (scan present s).map fun t => if t.devs.isEmpty then t else { t with ready := false, done := fun _ => false }

/-- The array without place `i`: the last one moves there (D 350-358). -/
def dropAt (i : Nat) (l : List Rom) : List Rom :=
  match l.getLast? with
  | none => l
  | some z => (l.set i z).dropLast

/-- The first channel with the address loses it (D 361-368, 375-389). -/
def release (a : Addr) : List Ch → List Ch
  | [] => []
  | ch :: rest => if ch.addr = a then { ch with addr := zeros } :: rest else ch :: release a rest

/-- `removeDs` (D 344-373), from the box of channel `c` (P 113-121, D 336-342). -/
def reset (c : Nat) (s : S) : S :=
  match s.chans[c]? with
  | none => s
  | some ch => match getIndex s.devs ch.addr with
    | none => s
    | some i => { s with devs := dropAt i s.devs, chans := release ch.addr s.chans }

/-- Start: the addresses come from the storage (D 29-44), the first channel scans the bus and each one looks for a
probe (D 46-50). -/
def boot (present : List Rom) (s : S) : Option S :=
  (scan present { chans := s.flash.map fun a => { addr := a }, flash := s.flash }).map fun t =>
    (List.range t.chans.length).foldl (fun t c => assign c t) t

/-- What happens. -/
inductive Ev where
  | request (present : List Rom)
  /-- the time of conversion has passed (D 200-206) -/
  | converted
  | pass (c : Nat) (T : Rom → Option Int)
  | reset (c : Nat)
  /-- the delayed saving (D 81, D 386) -/
  | save
  | boot (present : List Rom)

/-- One step. -/
def step (s : S) : Ev → Option S
  | .request p => request p s
  | .converted => some { s with ready := true }
  | .pass c T => some (pass T c s)
  | .reset c => some (reset c s)
  | .save => some { s with flash := s.chans.map Ch.addr }
  | .boot p => boot p s

/-- A history. -/
def run (es : List Ev) (s : S) : Option S := es.foldlM step s

/-- A new device with `n` thermometer channels. -/
def init (n : Nat) : S := { chans := List.replicate n {}, flash := List.replicate n zeros }

end Verif.Ds
