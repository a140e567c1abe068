/-!
# Device configuration exchanged with the server

Model of `/repo/src/supla/device/remote_device_config.cpp` (cited as R) and the constants and structures of
`/repo/src/supla-common/proto.h` (cited as P).

A message is its header and the 512 bytes of its `Config` array; `none` as the result of reading is a read
outside that array: undefined behaviour. The configuration is one optional number per key; an absent key
leaves the default of the reader (`/repo/src/supla/storage/config.h`, `getInt8` and the others). The
device has a configuration store (`Storage::ConfigInstance()` is not null).
-/

namespace Verif.DevCfg

/-- The fields, in the order of their bits (P 589-608). -/
inductive F where
  | led | bright | volume | ui | sync | delay | content | delayType | power
deriving DecidableEq, Repr

/-- The field of a bit (P 589-608; the `case` labels of R 154-189). -/
def fieldAt : Nat → Option F
  | 0 => some .led
  | 1 => some .bright
  | 2 => some .volume
  | 3 => some .ui
  | 4 => some .sync
  | 5 => some .delay
  | 6 => some .content
  | 7 => some .delayType
  | 8 => some .power
  | _ => none

/-- `sizeof` of the structure of a field, packed (P 2754-2814). -/
def F.size : F → Nat
  | .led => 1 | .bright => 3 | .volume => 1 | .ui => 5 | .sync => 1 | .delay => 2 | .content => 16
  | .delayType => 1 | .power => 1

/-- By how much the parser moves on behind a field (R 211-354): for the delay type it takes the size of
another structure (R 345). -/
def F.advance : F → Nat
  | .delayType => 2
  | f => f.size

/-- The stored configuration, one optional number per key. -/
structure Cfg where
  led : Option Int := none
  power : Option Int := none
  bright : Option Int := none
  adjust : Option Int := none
  volume : Option Int := none
  ui : Option Int := none
  minT : Option Int := none
  maxT : Option Int := none
  sync : Option Int := none
  delay : Option Int := none
  content : Option Int := none
  delayType : Option Int := none
deriving DecidableEq, Repr

/-- A byte of a field as unsigned number. -/
def u8 (b : List Nat) (i : Nat) : Int := (b.getD i 0 : Nat)

/-- A byte of a field as signed number. -/
def s8 (x : Int) : Int := (x + 128) % 256 - 128

/-- Two bytes, low byte first. -/
def u16 (b : List Nat) (i : Nat) : Int := u8 b i + 256 * u8 b (i + 1)

/-- Bytes as a number, low byte first. -/
def le : List Nat → Nat
  | [] => 0
  | x :: xs => x + 256 * le xs

/-- `HomeScreenContentBitToEnum` (R 65-101). -/
def bitToEnum (x : Nat) : Int :=
  if x = 2 then 1 else if x = 4 then 2 else if x = 8 then 3 else if x = 16 then 4
  else if x = 32 then 5 else if x = 64 then 6 else if x = 128 then 7 else 0

/-- A number if it is in a range, else a default. -/
def within (lo hi dflt x : Int) : Int := if x < lo ∨ x > hi then dflt else x

/-- A number moved into a range. -/
def clamp (lo hi x : Int) : Int := if x < lo then lo else if x > hi then hi else x

/-- Store `new` under a key when it differs from `old`. -/
def put (old new : Int) (key : Option Int) : Option Int := if new ≠ old then some new else key

/-- The new value of `ScreenBrightnessCfgTag` (R 420-431): -1 is "automatic". -/
def newBright (b : List Nat) : Int := within (-1) 100 (-1) (if u8 b 1 = 1 then -1 else u8 b 0)

/-- The nine functions `process…Config` (R 374-597, 954-974), with `b` the bytes of the structure and
`avail` the home screen contents of the device. -/
def apply (avail : Nat) (f : F) (b : List Nat) (c : Cfg) : Cfg :=
  match f with
  | .led =>
    let v := c.led.getD (-1)
    if v ≥ 0 ∧ v ≤ 2 ∧ v ≠ u8 b 0 then { c with led := some (s8 (u8 b 0)) } else c
  | .power =>
    let v := c.power.getD (-1)
    if v ≥ 0 ∧ v ≤ 1 ∧ v ≠ u8 b 0 then { c with power := some (s8 (u8 b 0)) } else c
  | .bright =>
    { c with
      bright := put (within 0 100 (-1) (c.bright.getD (-1))) (newBright b) c.bright
      adjust := put (c.adjust.getD 0) (clamp (-100) 100 (s8 (u8 b 2))) c.adjust }
  | .volume => { c with volume := put (clamp 0 100 (c.volume.getD 100)) (clamp 0 100 (u8 b 0)) c.volume }
  | .content =>
    let x := le ((b.drop 8).take 8)
    if x &&& avail = 0 then c
    else { c with content := put (within 0 63 0 (c.content.getD 0)) (bitToEnum x) c.content }
  | .delay => { c with delay := put (clamp 0 65535 (c.delay.getD 0)) (u16 b 0) c.delay }
  | .sync => if u8 b 0 ≤ 1 then { c with sync := put (c.sync.getD 1) (u8 b 0) c.sync } else c
  | .ui =>
    { c with
      ui := if u8 b 0 ≤ 2 then put (c.ui.getD 0) (u8 b 0) c.ui else c.ui
      minT := put (c.minT.getD 0) (u16 b 1) c.minT
      maxT := put (c.maxT.getD 0) (u16 b 3) c.maxT }
  | .delayType => { c with delayType := put (within 0 1 0 (c.delayType.getD 0)) (u8 b 0) c.delayType }

/-- `TSDS_SetDeviceConfig` (P 2708-2716). -/
structure Msg where
  last : Bool := true
  avail : Nat := 0
  fields : Nat := 0
  size : Nat := 0
  data : List Nat := []
deriving DecidableEq, Repr

/-- Bytes `off … off+n-1` of the array. -/
def slice (d : List Nat) (off n : Nat) : Option (List Nat) :=
  if off + n ≤ d.length then some ((d.drop off).take n) else none

/-- The first loop (R 149-199), `i` the number of the bit of `fieldBit`, with the turns left until it is
shifted out; `none` when it meets an unknown field, else the final `dataIndex`. -/
def precheck (m : Msg) : Nat → Nat → Nat → Option Nat
  | 0, _, idx => some idx
  | n + 1, i, idx =>
    if idx < m.size then
      if m.fields.testBit i then
        match fieldAt i with
        | none => none
        | some f => precheck m n (i + 1) (idx + f.size)
      else precheck m n (i + 1) idx
    else some idx

/-- Result codes (P 2820-2827); 255 is "none yet" (`remote_device_config.h` 101). -/
def rTrue : Nat := 1
/-- `SUPLA_CONFIG_RESULT_DATA_ERROR` (P 2822). -/
def rDataError : Nat := 2
/-- `SUPLA_CONFIG_RESULT_TYPE_NOT_SUPPORTED` (P 2823). -/
def rType : Nat := 3

/-- One turn of the second loop ends the function with a code, or goes on. -/
inductive Turn where
  | ub
  | stop (code : Nat)
  | go (idx : Nat) (c : Cfg)
deriving DecidableEq, Repr

/-- The body of the second loop up to the shift (R 212-355). -/
def turn (avail : Nat) (m : Msg) (i idx : Nat) (c : Cfg) : Turn :=
  if m.fields.testBit i then
    match fieldAt i with
    | none => .stop rType
    | some f =>
      if idx + f.size > m.size then .stop rDataError
      else match slice m.data idx f.size with
        | none => .ub
        | some b => .go (idx + f.advance) (apply avail f b c)
  else .go idx c

/-- The second loop (R 208-364). The result is `none` for undefined behaviour, else the code it ends with,
if any, and the configuration. (With `fieldBit` zero the loop ends by the check of R 357-362 or by its own
condition.) -/
def parse (avail : Nat) (m : Msg) : Nat → Nat → Nat → Cfg → Option (Option Nat × Cfg)
  | 0, _, _, c => some (none, c)
  | n + 1, i, idx, c =>
    if idx < m.size then
      match turn avail m i idx c with
      | .ub => none
      | .stop code => some (some code, c)
      | .go idx' c' =>
        if n = 0 ∧ idx' ≠ m.size then some (some rDataError, c') else parse avail m n (i + 1) idx' c'
    else some (none, c)

/-- The members of one `RemoteDeviceConfig` (`remote_device_config.h` 100-104). -/
structure Inst where
  endFlag : Bool := false
  code : Nat := 255
  first : Bool := false
  require : Nat := 0
deriving DecidableEq, Repr

/-- What the device is made of: `fieldBitsUsedByDevice` and `homeScreenContentAvailable`. -/
structure Dev where
  used : Nat
  avail : Nat
deriving DecidableEq, Repr

/-- The part of `processConfig` before the parsing (R 116-147): whether to go on, and the object. `flag` is
`isDeviceConfigChangeFlagSet()`, `ready` `isDeviceConfigChangeReadyToSend()`. -/
def enter (d : Dev) (flag ready : Bool) (m : Msg) (o : Inst) : Bool × Inst :=
  let o := { o with endFlag := m.last }
  if o.code ≠ 255 then (false, o)
  else
    let o := if m.last then { o with code := rTrue, require := if o.first ∧ m.avail ≠ d.used then m.avail ^^^ d.used else o.require } else o
    if flag then (false, if ready then { o with require := d.used } else o) else (true, o)

/-- `processConfig` (R 116-364): the object and the configuration afterwards. -/
def process (d : Dev) (flag ready : Bool) (m : Msg) (o : Inst) (c : Cfg) : Option (Inst × Cfg) :=
  let (go, o) := enter d flag ready m o
  if go then
    match precheck m 64 0 0 with
    | none => some ({ o with code := rType }, c)
    | some idx =>
      if idx ≠ m.size then some ({ o with code := rDataError }, c)
      else match parse d.avail m 64 0 0 c with
        | none => none
        | some (none, c) => some (o, c)
        | some (some code, c) => some ({ o with code := code }, c)
  else some (o, c)

/-- A number as `n` bytes, low byte first. -/
def bytes : Nat → Nat → List Nat
  | 0, _ => []
  | n + 1, x => x % 256 :: bytes n (x / 256)

/-- A signed number put into unsigned 8 or 16 bits. -/
def w8 (x : Int) : Nat := (x % 256).toNat
/-- The same with 16 bits. -/
def w16 (x : Int) : Nat := (x % 65536).toNat

/-- `HomeScreenIntToBit` (R 108-114). -/
def intToBit (mode : Int) : Nat := if mode < 0 ∨ mode > 63 then 1 else 2 ^ mode.toNat

/-- The nine functions `fill…Config` (R 599-776, 976-992): the bytes of the structure, zero before. -/
def fill (avail : Nat) (f : F) (c : Cfg) : List Nat :=
  match f with
  | .led => [w8 (within 0 2 0 (c.led.getD 0))]
  | .power => [w8 (within 0 1 0 (c.power.getD 0))]
  | .bright =>
    let v := c.bright.getD (-1)
    let a := w8 (clamp (-100) 100 (c.adjust.getD 0))
    if v ≤ -1 ∨ v > 100 then [0, 1, a] else [w8 v, 0, a]
  | .volume => [w8 (clamp 0 100 (c.volume.getD 0))]
  | .content => bytes 8 avail ++ bytes 8 (intToBit (c.content.getD 0))
  | .delay => bytes 2 (w16 (clamp 0 65535 (c.delay.getD 0)))
  | .sync => [w8 (clamp 0 1 (c.sync.getD 1))]
  | .ui =>
    w8 (clamp 0 2 (c.ui.getD 0)) :: (bytes 2 (w16 (clamp (-32768) 32767 (c.minT.getD 0)))
      ++ bytes 2 (w16 (clamp (-32768) 32767 (c.maxT.getD 0))))
  | .delayType => [w8 (within 0 1 0 (c.delayType.getD 0))]

/-- The loop of `fillSetDeviceConfig` (R 793-928), with the bytes written so far; `none` when the message is
too big. A field unknown here adds no bytes (R 921-925). -/
def fillLoop (avail remaining : Nat) (c : Cfg) : Nat → Nat → List Nat → Option (List Nat)
  | 0, _, acc => some acc
  | n + 1, i, acc =>
    if remaining.testBit i then
      match fieldAt i with
      | none => fillLoop avail remaining c n (i + 1) acc
      | some f =>
        if acc.length + f.size > 512 then none else fillLoop avail remaining c n (i + 1) (acc ++ fill avail f c)
    else fillLoop avail remaining c n (i + 1) acc

/-- `fillSetDeviceConfig` (R 782-933). -/
def fillMsg (d : Dev) (require : Nat) (c : Cfg) : Option Msg :=
  let fs := if require ≠ 0 then require else d.used
  (fillLoop d.avail fs c 64 0 []).map fun b =>
    { last := true, avail := d.used, fields := fs, size := b.length, data := b ++ List.replicate (512 - b.length) 0 }

end Verif.DevCfg
