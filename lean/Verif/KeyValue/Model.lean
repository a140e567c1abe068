/-!
# The configuration store `Supla::KeyValue`

Models `/repo/src/supla/storage/key_value.cpp` and `key_value.h`. The singly linked list of
heap-allocated elements is a Lean list; the only pointer defect that the list form cannot express, the
dangling `first` after erasing the head, is an explicit state.
-/

namespace Verif.KeyValue

/-- Memory as octets. -/
abbrev Bytes := List UInt8

/-- The characters of a C string stored at some place: everything before the first zero byte. -/
def cstr (b : Bytes) : Bytes := b.takeWhile (· ≠ 0)

/-- `SUPLA_STORAGE_KEY_SIZE`, `key_value.h:27`. -/
def keySize : Nat := 15

/-- The `key` member after the constructor's `strncpy(key, keyName, 15)`, `key_value.cpp:315-317`:
copies up to 15 characters and pads with zeros. -/
def storedKey (k : Bytes) : Bytes :=
  let c := (cstr k).take keySize
  c ++ List.replicate (keySize - c.length) 0

/-- `strncmp(a, b, n) == 0`. Missing bytes read as the terminator. -/
def strncmpEq : Nat → Bytes → Bytes → Bool
  | 0, _, _ => true
  | n + 1, a, b =>
    if a.headD 0 ≠ b.headD 0 then false
    else if a.headD 0 = 0 then true
    else strncmpEq n a.tail b.tail

/-- Typed payload of an element: `dataType`, `size` and the `data` union, `key_value.h:108-121`.
Signed values are kept as their bit patterns. `str s` stands for a heap buffer of `s.length + 1`
bytes holding `s` and a terminator. -/
inductive Value where
  | u8 (v : BitVec 8)
  | i8 (v : BitVec 8)
  | u32 (v : BitVec 32)
  | i32 (v : BitVec 32)
  | blob (b : Bytes)
  | str (s : Bytes)
deriving DecidableEq, Repr

/-- `enum DataType`, `key_value.h:68-76` (0 is `DATA_TYPE_NOT_SET`). -/
def Value.typeId : Value → UInt8
  | .u8 _ => 1 | .i8 _ => 2 | .u32 _ => 3 | .i32 _ => 4 | .blob _ => 5 | .str _ => 6

/-- `KeyValueElement`, `key_value.h:108-121`: key and typed payload. -/
structure Elem where
  key : Bytes
  val : Value
deriving DecidableEq, Repr

/-- The store: the list starting at `first`, or a `first` that points to a deleted element. -/
inductive Store where
  | live (l : List Elem)
  | dangling
deriving DecidableEq, Repr

/-- `KeyValueElement::isKeyEqual`, `key_value.cpp:333-335`. -/
def Elem.isKeyEqual (e : Elem) (k : Bytes) : Bool := strncmpEq keySize e.key k

/-- `KeyValue::find`, `key_value.cpp:200-209`. -/
def find (l : List Elem) (k : Bytes) : Option Value :=
  (l.find? (·.isKeyEqual k)).map (·.val)

/-- The setters of an existing element (`setString`, `setBlob`, `setInt8`, ... `key_value.cpp:362-379,
400-416, 469-519`): refused when the stored type differs. -/
def Elem.set (e : Elem) (v : Value) : Bool × Elem :=
  if e.val.typeId = v.typeId then (true, { e with val := v }) else (false, e)

/-- Apply an element setter to the first element with this key. -/
def setFirst (k : Bytes) (v : Value) : List Elem → Bool × List Elem
  | [] => (false, [])
  | e :: es =>
    if e.isKeyEqual k then let r := e.set v; (r.1, r.2 :: es)
    else let r := setFirst k v es; (r.1, e :: r.2)

/-- `KeyValue::setXxx` = `findOrCreate` (`key_value.cpp:211-219`, new elements become the head and
start as `NOT_SET`, so their first setter always succeeds) followed by the element's setter
(`key_value.cpp:221-313`). -/
def set (k : Bytes) (v : Value) (l : List Elem) : Bool × List Elem :=
  match find l k with
  | none => (true, ⟨storedKey k, v⟩ :: l)
  | some _ => setFirst k v l

/-- `getUInt8` etc., `key_value.cpp:437-467`: the value if the stored type is the requested one.
`t` is the requested type. -/
def getTyped (t : UInt8) (k : Bytes) (l : List Elem) : Option Value :=
  match find l k with
  | some v => if v.typeId = t then some v else none
  | none => none

/-- `getString` with the caller's buffer size, `key_value.cpp:381-391`: the text written to the
buffer. -/
def getString (k : Bytes) (maxSize : Nat) (l : List Elem) : Option Bytes :=
  match find l k with
  | some (.str s) => if s.length + 1 ≤ maxSize then some s else none
  | _ => none

/-- `getBlob`, `key_value.cpp:418-428`. -/
def getBlob (k : Bytes) (size : Nat) (l : List Elem) : Option Bytes :=
  match find l k with
  | some (.blob b) => if b.length = size then some b else none
  | _ => none

/-- `getStringSize`, `key_value.cpp:393-398`. -/
def getStringSize (k : Bytes) (l : List Elem) : Nat :=
  match find l k with
  | some (.str s) => s.length + 1
  | _ => 0

/-- `getBlobSize`, `key_value.cpp:430-435`. -/
def getBlobSize (k : Bytes) (l : List Elem) : Nat :=
  match find l k with
  | some (.blob b) => b.length
  | _ => 0

/-- Unlink the first element with this key from the tail of the list. -/
def eraseFirst (k : Bytes) : List Elem → List Elem
  | [] => []
  | e :: es => if e.isKeyEqual k then es else e :: eraseFirst k es

/-- `KeyValue::eraseKey`, `key_value.cpp:580-597`. The loop looks for the predecessor of the element;
the head has none, so erasing the head deletes it while `first` keeps pointing to it. -/
def eraseKey (k : Bytes) (l : List Elem) : Bool × Store :=
  match find l k with
  | none => (false, .live l)
  | some _ =>
    match l with
    | [] => (false, .live l)
    | e :: es => if e.isKeyEqual k then (true, .dangling) else (true, .live (e :: eraseFirst k es))

/-! ### Serialisation -/

/-- Two-byte little-endian size field; `static_cast<uint16_t>`, `key_value.cpp:549`. -/
def le16 (n : Nat) : Bytes := [UInt8.ofNat (n % 256), UInt8.ofNat (n / 256 % 256)]

/-- The four bytes copied by `memcpy` of a 32-bit number, `key_value.cpp:559-566`, on a little-endian machine. -/
def le32v (v : BitVec 32) : Bytes :=
  [UInt8.ofNat (v.toNat % 256), UInt8.ofNat (v.toNat / 256 % 256),
   UInt8.ofNat (v.toNat / 65536 % 256), UInt8.ofNat (v.toNat / 16777216 % 256)]

/-- The `size` member: only set for blobs and strings (`key_value.h:112`). -/
def Value.sizeField : Value → Nat
  | .blob b => b.length
  | .str s => s.length + 1
  | _ => 0

/-- Payload bytes. -/
def Value.payload : Value → Bytes
  | .u8 v | .i8 v => [UInt8.ofNat v.toNat]
  | .u32 v | .i32 v => le32v v
  | .blob b => b
  | .str s => s ++ [0]

/-- The block written for one element. -/
def Elem.block (e : Elem) : Bytes :=
  e.key ++ [e.val.typeId] ++ le16 e.val.sizeField ++ e.val.payload

/-- `KeyValueElement::serialize`, `key_value.cpp:521-578`: nothing is written if the block does not
fit. -/
def Elem.serialize (e : Elem) (maxSize : Nat) : Bytes :=
  if e.block.length > maxSize then [] else e.block

/-- `KeyValue::serializeToMemory`, `key_value.cpp:190-198`: the bytes written. -/
def serialize (maxSize : Nat) : List Elem → Bytes
  | [] => []
  | e :: es =>
    let b := e.serialize maxSize
    b ++ serialize (maxSize - b.length) es

/-- Outcome of `initFromMemory`. In the C++ code the elements loaded before a failure stay in the
store. -/
inductive Load where
  | ok (l : List Elem)
  | fail (l : List Elem)
  | outside          -- a read outside the image
  | fuel             -- artefact of the model: proved unreachable
  | unterminated     -- `strlen` ran past the end of the heap copy of a string
deriving DecidableEq, Repr

/-- The 32-bit number read by `memcpy`, `key_value.cpp:114-115, 128-129`, on a little-endian machine. -/
def toVal32 (b : Bytes) : BitVec 32 :=
  BitVec.ofNat 32 ((b.getD 0 0).toNat + 256 * (b.getD 1 0).toNat + 65536 * (b.getD 2 0).toNat +
    16777216 * (b.getD 3 0).toNat)

/-- Parse of one element, `key_value.cpp:79-176`. `img` is the rest of the image, `input .. endPtr`,
known to be longer than 18 bytes. Result: the element and the number of bytes consumed. -/
inductive Parse where
  | elem (e : Elem) (used : Nat)
  | fail
  | outside
  | unterminated
deriving DecidableEq, Repr

/-- `img` is `input .. endPtr`. Reads past `img` give `outside`; the comparisons with `endPtr` are the
ones of the code. -/
def parseOne (img : Bytes) : Parse :=
  if img.length < 18 then .outside                 -- memcpy of key, read of type and size
  else
    let key := storedKey (img.take 15)
    let ty := img.getD 15 0
    let size := (img.getD 16 0).toNat + 256 * (img.getD 17 0).toNat
    let rest := img.drop 18
    if ty = 1 ∨ ty = 2 then
      if 0 < rest.length then
        match rest with
        | [] => .outside
        | c :: _ => .elem ⟨key, if ty = 1 then .u8 c.toBitVec else .i8 c.toBitVec⟩ 19
      else .fail
    else if ty = 3 ∨ ty = 4 then
      if 3 < rest.length then
        if rest.length < 4 then .outside
        else .elem ⟨key, if ty = 3 then .u32 (toVal32 rest) else .i32 (toVal32 rest)⟩ 22
      else .fail
    else if ty = 5 then
      -- `input + size - 1 < endPtr`
      if size < rest.length + 1 then
        if rest.length < size then .outside else .elem ⟨key, .blob (rest.take size)⟩ (18 + size)
      else .fail
    else if ty = 6 then
      if size < rest.length + 1 then
        if rest.length < size then .outside
        -- `element->setString(buffer)`: `strlen` on the heap copy of exactly `size` bytes
        else if 0 ∈ rest.take size then .elem ⟨key, .str (cstr (rest.take size))⟩ (18 + size)
        else .unterminated
      else .fail
    else .fail

/-- The loop of `initFromMemory`, `key_value.cpp:78-187`; `acc` is what was loaded so far. `fuel`
bounds the iterations. -/
def loadLoop : Nat → Bytes → List Elem → Load
  | 0, _, _ => .fuel
  | fuel + 1, img, acc =>
    if 18 < img.length then
      match parseOne img with
      | .elem e used => loadLoop fuel (img.drop used) (acc ++ [e])
      | .fail => .fail acc
      | .outside => .outside
      | .unterminated => .unterminated
    else if img.length > 0 then .fail acc else .ok acc

/-- `KeyValue::initFromMemory` on an empty store, `key_value.cpp:72-188`. -/
def load (img : Bytes) : Load := loadLoop (img.length + 1) img []

end Verif.KeyValue
