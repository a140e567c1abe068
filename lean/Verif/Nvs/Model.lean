/-! # Configuration in the non-volatile storage of ESP-IDF

`/repo/extras/porting/esp-idf/nvs_config.cpp` (N), `/repo/src/supla/storage/key_value.cpp` (K),
`/repo/src/supla/network/html/custom_text_parameter.cpp` (T). Of the NVS library (not in the repository) is taken: keys have
1 to 15 characters; a text has at most 3999 bytes and needs a buffer with room for the zero byte; a blob needs a buffer that
is not smaller; a failed call changes nothing. Simplified: each key is used with one type; flash errors do not happen. -/

namespace Verif.Nvs

/-- Text without the zero byte, and keys. -/
abbrev Text := List Nat

/-- Values (`nvs_set_str`, `nvs_set_blob`, `nvs_set_i8` … `nvs_set_u32`). -/
inductive Val where
  | str (t : Text)
  | blob (b : List Nat)
  | num (n : Int)
deriving DecidableEq, Repr

/-- The namespace "supla" of a partition. -/
abbrev Store := Text → Option Val

/-- A partition; `full` if its initialisation reports that there are no free pages. -/
structure Part where
  store : Store := fun _ => none
  full : Bool := false

/-- The partitions "nvs" and "suplanvs", if they are in the partition table. -/
structure Flash where
  nvs : Option Part
  supla : Option Part

/-- Which partition the configuration uses. -/
inductive Handle where
  | none
  | nvs
  | supla
deriving DecidableEq, Repr

/-- `nvs_flash_init_partition`, with the erasing of a full one (N 61-68). -/
def initPart (p : Part) : Part := if p.full then {} else p

/-- `NvsConfig::init` (N 41-118): the partition "nvs" must exist; if "suplanvs" exists it is used, and the namespace in "nvs"
is erased (N 86-97). -/
def init (f : Flash) : Handle × Flash :=
  match f.nvs with
  | .none => (.none, f)
  | .some n =>
    match f.supla with
    | .none => (.nvs, { f with nvs := some (initPart n) })
    | .some s => (.supla, { nvs := some { initPart n with store := fun _ => none }, supla := some (initPart s) })

/-- The store behind the handle. -/
def storeOf (h : Handle) (f : Flash) : Store :=
  match h with
  | .none => fun _ => none
  | .nvs => (f.nvs.getD {}).store
  | .supla => (f.supla.getD {}).store

/-- Is the pair accepted by the library? -/
def accepted (k : Text) (v : Val) : Bool :=
  decide (k ≠ [] ∧ k.length ≤ 15) && (match v with | .str t => decide (t.length < 4000) | _ => true)

/-- `setString`, `setBlob`, `setInt8` … (N 135-138, 155-158, 189-207): result and store. -/
def set (s : Store) (k : Text) (v : Val) : Bool × Store :=
  if accepted k v then (true, fun x => if x = k then some v else s x) else (false, s)

/-- `eraseKey` (N 128-132). -/
def eraseKey (s : Store) (k : Text) : Bool × Store := ((s k).isSome, fun x => if x = k then none else s x)

/-- `removeAll` (N 120-126). -/
def removeAll : Store := fun _ => none

/-- `getString` with a buffer of `maxSize` bytes (N 140-143): the text, or failure. -/
def getString (s : Store) (k : Text) (maxSize : Nat) : Option Text :=
  match s k with
  | some (.str t) => if t.length + 1 ≤ maxSize then some t else none
  | _ => none

/-- `getBlob` with a buffer of `size` bytes (N 160-163): the bytes written to the buffer. -/
def getBlob (s : Store) (k : Text) (size : Nat) : Option (List Nat) :=
  match s k with
  | some (.blob b) => if b.length ≤ size then some b else none
  | _ => none

/-- `getInt8` … `getUInt32` (N 169-187). -/
def getNum (s : Store) (k : Text) : Option Int :=
  match s k with
  | some (.num n) => some n
  | _ => none

/-- `getStringSize` (N 145-153): result and bytes of the heap that stay taken. -/
def getStringSize (s : Store) (k : Text) : Int × Nat :=
  match getString s k 4000 with
  | some t => ((t.length : Int), 0)
  | none => (-1, 4000)

/-- `getBlobSize` (N 165-167). -/
def getBlobSize (_s : Store) (_k : Text) : Int := -1

/-! ## The same questions to the other configuration stores -/

/-- `KeyValue::getStringSize` (K 234-240, 393-398): with the zero byte. -/
def kvStringSize (s : Store) (k : Text) : Int :=
  match s k with
  | some (.str t) => ((t.length + 1 : Nat) : Int)
  | _ => 0

/-- `KeyValue::getString` (K 226-232, 381-391). -/
def kvGetString (s : Store) (k : Text) (maxSize : Nat) : Option Text :=
  match s k with
  | some (.str t) => if t.length + 1 ≤ maxSize then some t else none
  | _ => none

/-! ## Text field of the configuration page -/

/-- The `value` put into the page (T 64-70, 78-84): none if there is no `value` attribute; the buffer stays empty if the text
could not be read. `size` and `get` are those of the store. -/
def fieldValue (size : Int) (get : Nat → Option Text) : Option Text :=
  if size > 0 then some ((get size.toNat).getD []) else none

/-- What a browser sends back for an untouched field. -/
def sentBack (v : Option Text) : Text := v.getD []

/-- `setParameterValue` (T 108-118): too long a text is ignored. -/
def setField (s : Store) (tag : Text) (maxSize : Nat) (t : Text) : Store :=
  if t.length > maxSize then s else (set s tag (.str t)).2

/-- The page shown and saved untouched, on NVS. -/
def saveUntouched (s : Store) (tag : Text) (maxSize : Nat) : Store :=
  setField s tag maxSize (sentBack (fieldValue (getStringSize s tag).1 (getString s tag)))

/-- The page shown and saved untouched, on the key-value store (limits of NVS kept: they do not matter for the claims). -/
def kvSaveUntouched (s : Store) (tag : Text) (maxSize : Nat) : Store :=
  setField s tag maxSize (sentBack (fieldValue (kvStringSize s tag) (kvGetString s tag)))

/-! ## Histories -/

/-- Calls that change the configuration. -/
inductive Op where
  | set (k : Text) (v : Val)
  | erase (k : Text)
  | removeAll

/-- One call. -/
def step (s : Store) : Op → Store
  | .set k v => (set s k v).2
  | .erase k => (eraseKey s k).2
  | .removeAll => removeAll

/-- A history. -/
def run (ops : List Op) (s : Store) : Store := ops.foldl step s

end Verif.Nvs
