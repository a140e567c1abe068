import Verif.Rsa.Model

/-!
# Firmware update on the ESP targets

Cited as O: `/repo/extras/porting/esp-idf/esp_idf_ota.cpp`. What the platform does (HTTP client, JSON parser, flash) is given by the
`World`: it may answer anything. A big file is at most as long as its flash partition, so `int` sizes do not overflow and are natural
numbers here. Log texts are left out.
-/

namespace Verif.Ota

open Verif.Sha256 (Byte Ctx)

/-! ## The query -/

/-- What the query is made of: `%d` texts, url-encoded name and version, the two digests as hexadecimal text. -/
structure Fields where
  manufacturer : List Nat
  product : List Nat
  name : List Nat
  platform : List Nat
  version : List Nat
  guidHash : List Nat
  emailHash : Option (List Nat)
  beta : Bool
deriving Repr

/-- The codes of the characters of a text. -/
def txt (s : String) : List Nat := s.toList.map Char.toNat

/-- `stringAppend(queryParams + curPos, s, URL_SIZE - curPos - 1)`, `/repo/src/supla/tools.cpp` lines 248-255, with the test of its
result, O lines 76-80 and so on: `none` when the result is 0. -/
def append (q : Option (List Nat)) (s : List Nat) : Option (List Nat) :=
  q.bind (fun q => if s.length = 0 then none else if s.length < 512 - q.length - 1 then some (q ++ s) else none)

/-- The 64 characters of a digest, O lines 136-141 and 161-166. -/
def appendHash (q : Option (List Nat)) (h : List Nat) : Option (List Nat) :=
  q.bind (fun q => if q.length < 512 - 1 - 32 * 2 then some (q ++ h) else none)

/-- O lines 75-176. -/
def query (f : Fields) : Option (List Nat) :=
  let q := append (append (some []) (txt "manufacturerId=")) f.manufacturer
  let q := append (append q (txt "&productId=")) f.product
  let q := append (append q (txt "&productName=")) f.name
  let q := append (append q (txt "&platform=")) f.platform
  let q := append (append q (txt "&version=")) f.version
  let q := appendHash (append q (txt "&guidHash=")) f.guidHash
  let q := match f.emailHash with
    | some h => appendHash (append q (txt "&userEmailHash=")) h
    | none => q
  if f.beta then append q (txt "&beta=true") else q

/-! ## The platform -/

/-- One call of `esp_http_client_read`: an error; some bytes; or nothing, with the connection closed (`errno`) or not and the whole
body received or not. -/
inductive Read
  | error
  | data (b : List Byte)
  | nothing (closed complete : Bool)
deriving Repr

/-- What the parsed answer of the update server says. -/
inductive Answer
  | unreadable
  | noUpdate
  | noAddress
  | update
deriving DecidableEq, Repr

/-- What the platform answers. -/
structure World where
  /-- `esp_http_client_init` gives a client -/
  clientOk : Bool
  openOk : Bool
  /-- the reads of the answer of the update server -/
  answerReads : List Read
  /-- the JSON parser, on the text in the buffer -/
  parse : List Byte → Answer
  open2Ok : Bool
  headersOk : Bool
  status : Nat
  partitionOk : Bool
  beginOk : Bool
  /-- the reads of the file -/
  fileReads : List Read
  /-- does the write to flash of these bytes, after that many, succeed? -/
  writeOk : Nat → List Byte → Bool
  endOk : Bool
  /-- does reading flash at this place succeed? -/
  readOk : Nat → Bool
  /-- what was in the partition behind the file -/
  rest : List Byte
  /-- `esp_ota_set_boot_partition` -/
  setBootOk : Bool
  /-- the public key of the device, if one was set -/
  key : Option (List Byte)
  /-- what freshly allocated memory holds -/
  alloc : Nat → List Byte

/-! ## The answer of the update server -/

/-- How a loop of reads ends. -/
inductive Got
  | failed
  | waiting
  | done (complete : Bool)
deriving DecidableEq, Repr

/-- The loop O lines 222-240: every piece goes to the start of the buffer, and a terminator after it. -/
def answerLoop (buffer : Option (List Byte)) : List Read → Got × Option (List Byte)
  | [] => (.waiting, buffer)
  | .error :: _ => (.failed, buffer)
  | .data b :: l => answerLoop (some b) l
  | .nothing closed complete :: l =>
    if closed then (.done complete, buffer) else if complete then (.done true, buffer) else answerLoop buffer l

/-! ## The file -/

/-- The loop O lines 323-349: the bytes written so far. -/
def fileLoop (w : World) (got : List Byte) : List Read → Got × List Byte
  | [] => (.waiting, got)
  | .error :: _ => (.failed, got)
  | .data b :: l => if w.writeOk got.length b then fileLoop w (got ++ b) l else (.failed, got)
  | .nothing closed complete :: l =>
    if closed then (.done complete, got) else if complete then (.done true, got) else fileLoop w got l

/-! ## The signature -/

/-- `expectedFooter`, O lines 401-416. -/
def expectedFooter : List Byte := [0xBA, 0xBE, 0x2B, 0xED, 0x00, 0x01, 0x02, 0x00, 0x10, 0x00, 0x00, 0x00, 0x00, 0x00, 0x00, 0x00]

/-- `esp_partition_read`. -/
def partRead (w : World) (part : List Byte) (i size : Nat) : Option (List Byte) :=
  if w.readOk i then some ((part.drop i).take size) else none

/-- The loop O lines 427-443: `i` bytes are done. -/
def hashLoop (w : World) (part : List Byte) (appSize : Nat) (hash : Ctx) : Nat → Nat → Option Ctx
  | 0, _ => some hash
  | fuel + 1, i =>
    if i < appSize then
      match partRead w part i (if i + 4096 > appSize then appSize - i else 4096) with
      | some b => hashLoop w part appSize (Sha256.update hash b) fuel (i + 4096)
      | none => none
    else some hash

/-- `verifyRsaSignature`, O lines 395-479; `none`: the program stops. `limb` is the number of bits of a limb, `block` what the hash
object's buffer happens to hold. -/
def verifyRsaSignature (limb : Nat) (block : List Byte) (w : World) (part : List Byte) (binSize : Nat) : Option Bool :=
  if binSize < 16 + 512 + 1 then some false
  else
    match hashLoop w part (binSize - 16 - 512) (Sha256.init block) (binSize + 1) 0 with
    | none => some false
    | some hash =>
      match partRead w part (binSize - 16) 16 with
      | none => some false
      | some footer =>
        if footer ≠ expectedFooter then some false
        else
          match partRead w part (binSize - 16 - 512) 512 with
          | none => some false
          | some sig =>
            match w.key with
            | some key => (Rsa.verify limb (w.alloc (Rsa.mkKey key).size) (Rsa.mkKey key) hash sig).1
            | none => some false

/-! ## The update -/

/-- How an update ends. -/
inductive End
  /-- something the language does not define, or the program stops -/
  | undefined
  /-- still reading -/
  | waiting
  /-- given up; `leaked`: the parsed answer was not freed -/
  | failed (leaked : Bool)
  /-- the new firmware starts at the next boot -/
  | switched
deriving DecidableEq, Repr

/-- O lines 304-388: from the choice of the partition on. -/
def install (limb : Nat) (block : List Byte) (w : World) : End :=
  if ¬ w.partitionOk then .failed false
  else if ¬ w.beginOk then .failed false
  else
    match fileLoop w [] w.fileReads with
    | (.failed, _) => .failed false
    | (.waiting, _) => .waiting
    | (.done complete, file) =>
      if ¬ complete then .failed false
      else if ¬ w.endOk then .failed false
      else
        match verifyRsaSignature limb block w (file ++ w.rest) file.length with
        | none => .undefined
        | some false => .failed false
        | some true => if w.setBootOk then .switched else .failed false

/-- O lines 281-302: the parsed answer is freed. -/
def fetchFile (limb : Nat) (block : List Byte) (w : World) : End :=
  if ¬ w.open2Ok then .failed false
  else if ¬ w.headersOk then .failed false
  else if w.status ≠ 200 then .failed false
  else install limb block w

/-- `iterate` of a started update, O lines 59-388. The client is used (line 193) before it is compared with NULL (line 197); the buffer
is parsed even if nothing was ever read into it. -/
def iterate (limb : Nat) (block : List Byte) (f : Fields) (w : World) : End :=
  match query f with
  | none => .failed false
  | some _ =>
    if ¬ w.clientOk then .undefined
    else if ¬ w.openOk then .failed false
    else
      match answerLoop none w.answerReads with
      | (.failed, _) => .failed false
      | (.waiting, _) => .waiting
      | (.done complete, buffer) =>
        if ¬ complete then .failed false
        else
          match buffer with
          | none => .undefined
          | some text =>
            match w.parse text with
            | .unreadable => .failed false
            | .noUpdate => .failed true
            | .noAddress => .failed true
            | .update => fetchFile limb block w

end Verif.Ota
