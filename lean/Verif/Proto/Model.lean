/-!
# SUPLA packet framing (`sproto`) and the device receive loop

Models `/repo/src/supla-common/proto.c` and the parts of `/repo/src/supla-common/srpc.c` that move
packets between the connection and the RPC layer in device builds (`SRPC_WITHOUT_IN_QUEUE`,
`SRPC_WITHOUT_OUT_QUEUE`, `PACKET_INTEGRITY_BUFFER_DISABLED`, `/repo/src/supla-common/srpc.h:53-58`).

Bytes are `UInt8`; the C `unsigned _supla_int_t` fields are natural numbers with explicit reduction
modulo 2^32 where the C arithmetic can wrap. Heap buffers are modelled by their allocated size and
the bytes stored so far; an access outside them is the distinct outcome `ub`.
-/

namespace Verif.Proto

/-- Memory as octets. -/
abbrev Bytes := List UInt8

/-- Compile-time constants: `SUPLA_MAX_DATA_SIZE` (`proto.h:124-139`), `BUFFER_MIN_SIZE`,
`BUFFER_MAX_SIZE` (`proto.c:28-59`), `SRPC_BUFFER_SIZE` (`srpc.c:27-73`), `SUPLA_PROTO_VERSION_MIN`,
`SUPLA_PROTO_VERSION` (`proto.h:122-123`). -/
structure Cfg where
  maxData : Nat
  bufMin : Nat
  bufMax : Nat
  readMax : Nat
  verMin : Nat
  verMax : Nat

/-- ESP8266 / ESP32 device builds. -/
def cfgEsp : Cfg := ⟨600, 512, 2048, 256, 1, 25⟩
/-- AVR (Arduino Mega) device builds. -/
def cfgAvr : Cfg := ⟨600, 32, 1024, 32, 1, 25⟩
/-- Other `SUPLA_DEVICE` builds (Linux, ESP-IDF without `ESP32` macro). -/
def cfgLinux : Cfg := ⟨600, 512, 2048, 1024, 1, 25⟩

/-- The modulus of `unsigned int`. -/
def two32 : Nat := 4294967296

/-- `a - b` on `unsigned int`. -/
def sub32 (a b : Nat) : Nat := (a + two32 - b) % two32
/-- `a + b` on `unsigned int`. -/
def add32 (a b : Nat) : Nat := (a + b) % two32

/-- `sproto_tag`, `proto.c:61`: "SUPLA". -/
def tag : Bytes := [83, 85, 80, 76, 65]

/-- `sizeof(TSuplaDataPacket) - SUPLA_MAX_DATA_SIZE` for the packed struct of `proto.h:652-659`:
tag 5, version 1, rr_id 4, call_id 4, data_size 4. -/
def headerSize : Nat := 18

/-- `sizeof(TSuplaDataPacket)`. -/
def Cfg.sdpSize (cfg : Cfg) : Nat := headerSize + cfg.maxData

/-- Little-endian 32-bit field as stored by the supported (little-endian) targets. -/
def le32 (n : Nat) : Bytes :=
  [UInt8.ofNat (n % 256), UInt8.ofNat (n / 256 % 256), UInt8.ofNat (n / 65536 % 256),
   UInt8.ofNat (n / 16777216 % 256)]

/-- Read a byte of a buffer (0 past the end; callers check the length first). -/
def byteAt (b : Bytes) (i : Nat) : Nat := (b.getD i 0).toNat

/-- Read a little-endian 32-bit field. -/
def rd32 (b : Bytes) (i : Nat) : Nat :=
  byteAt b i + 256 * byteAt b (i + 1) + 65536 * byteAt b (i + 2) + 16777216 * byteAt b (i + 3)

/-- A growable buffer: `size` (allocated) and the first `data_size` bytes, `proto.c:63-77`. -/
structure Buf where
  size : Nat
  data : Bytes
deriving Repr, DecidableEq

/-- Results of `sproto_buffer_append`, `proto.c:112-150`. -/
inductive AppendRes where
  | ok (b : Buf)
  | overflow          -- SUPLA_RESULT_BUFFER_OVERFLOW
  | noMem             -- SUPLA_RESULT_FALSE
  | ub                -- memcpy outside the allocation
deriving Repr, DecidableEq

/-- `sproto_buffer_append`, `proto.c:112-150`. `oom` says whether a needed `realloc` fails. -/
def append (cfg : Cfg) (oom : Bool) (b : Buf) (d : Bytes) : AppendRes :=
  let size0 := if b.size < cfg.bufMin then cfg.bufMin else b.size
  let free := sub32 size0 b.data.length
  let size1 := if d.length > free then add32 size0 (sub32 d.length free) else size0
  if size1 ≥ cfg.bufMax then .overflow
  else if size1 ≠ b.size ∧ oom = true ∧ size1 > 0 then .noMem
  else if b.data.length + d.length > size1 then .ub
  else .ok ⟨size1, b.data ++ d⟩

/-- Dropping the first `n` bytes and reallocating: the common part of `sproto_shrink_in_buffer`
(`proto.c:245-270`) and `sproto_pop_out_data` (`proto.c:189-217`). The element-wise copy loops are
modelled as `List.drop`. -/
def shrink (cfg : Cfg) (oom : Bool) (b : Buf) (n : Nat) : Buf :=
  let rest := b.data.drop (min n b.data.length)
  if rest.length < b.size then
    let size1 := if rest.length < cfg.bufMin then cfg.bufMin else rest.length
    if b.size ≠ size1 ∧ oom = true ∧ size1 > 0 then ⟨b.size, rest⟩ else ⟨size1, rest⟩
  else ⟨b.size, rest⟩

/-- `TSuplaProtoInBuffer`, `proto.c:63-69`. -/
structure InBuf where
  beginTag : Bool
  buf : Buf
deriving Repr, DecidableEq

/-- `sproto_shrink_in_buffer`, `proto.c:238-271`. -/
def shrinkIn (cfg : Cfg) (oom : Bool) (b : InBuf) (n : Nat) : InBuf :=
  ⟨false, shrink cfg oom b.buf n⟩

/-- Result codes of `sproto_pop_in_sdp`. -/
inductive PopRes where
  | none                      -- SUPLA_RESULT_FALSE
  | packet                    -- SUPLA_RESULT_TRUE
  | dataError                 -- SUPLA_RESULT_DATA_ERROR
  | versionError (v : Nat)    -- SUPLA_RESULT_VERSION_ERROR
  | ub                        -- read outside the stored bytes
deriving Repr, DecidableEq

/-- `memcpy(sdp, src, n)` into a `TSuplaDataPacket` seen as bytes: the first `n` bytes are
overwritten, the others keep their old content. -/
def copyTo (sdp src : Bytes) (n : Nat) : Bytes := src.take n ++ sdp.drop n

/-- `sproto_pop_in_sdp`, `proto.c:273-327`. `sdp` is the caller's packet structure as bytes. -/
def popIn (cfg : Cfg) (oom : Bool) (b : InBuf) (sdp : Bytes) : PopRes × InBuf × Bytes :=
  -- lines 280-287
  let needTag := b.beginTag = false ∧ b.buf.data.length ≥ 5
  if needTag ∧ b.buf.data.take 5 ≠ tag then
    (.dataError, shrinkIn cfg oom b b.buf.data.length, sdp)
  else
    let begin1 := if needTag then true else b.beginTag
    let b1 : InBuf := ⟨begin1, b.buf⟩
    -- lines 289-291
    if begin1 = true ∧ sub32 b.buf.data.length 5 ≥ headerSize then
      if b.buf.data.length < headerSize then (.ub, b1, sdp)
      else
        let version := byteAt b.buf.data 5
        -- lines 294-300
        if version > cfg.verMax ∨ version < cfg.verMin then
          (.versionError version, shrinkIn cfg oom b1 b.buf.data.length,
            sdp.set 5 (b.buf.data.getD 5 0))
        else
          let total := add32 headerSize (rd32 b.buf.data 14)
          -- lines 302-305
          if total > cfg.sdpSize then
            (.dataError, shrinkIn cfg oom b1 b.buf.data.length, sdp)
          -- lines 307-308
          else if add32 total 5 > b.buf.data.length then (.none, b1, sdp)
          -- lines 310-316
          else if total ≥ b.buf.size then
            (.dataError, shrinkIn cfg oom b1 b.buf.data.length, sdp)
          else if total + 5 > b.buf.data.length then (.ub, b1, sdp)
          else if (b.buf.data.drop total).take 5 ≠ tag then
            (.dataError, shrinkIn cfg oom b1 b.buf.data.length, sdp)
          else if total > sdp.length then (.ub, b1, sdp)
          else
            -- lines 318-322
            (.packet, shrinkIn cfg oom b1 (add32 total 5), copyTo sdp b.buf.data total)
    else (.none, b1, sdp)

/-- What the RPC layer reads from the packet structure (`srpc.c:441-444` and the data access through
`sdp.data`, `sdp.data_size`). -/
structure Packet where
  version : Nat
  rrId : Nat
  callId : Nat
  data : Bytes
deriving Repr, DecidableEq

/-- Fields of a `TSuplaDataPacket` laid out as in `proto.h:652-659`. -/
def readSdp (sdp : Bytes) : Packet :=
  { version := byteAt sdp 5
    rrId := rd32 sdp 6
    callId := rd32 sdp 10
    data := (sdp.drop 18).take (rd32 sdp 14) }

/-- How one pass of the receive loop ended. -/
inductive IterEnd where
  | ok                        -- SUPLA_RESULT_TRUE, waits for more input
  | overflow | noMem          -- append refused, SUPLA_RESULT_FALSE
  | dataError
  | versionError (v : Nat)
  | closed                    -- read returned 0: connection closed, SUPLA_RESULT_FALSE
  | ub
  | fuel                      -- artefact of the model: proved unreachable
deriving Repr, DecidableEq

/-- Receiver state: the in-buffer and the `sdp` member of `Tsrpc`. -/
structure Recv where
  inb : InBuf
  sdp : Bytes
deriving Repr, DecidableEq

/-- State after `srpc_init`/`sproto_init` (`memset` to 0), `srpc.c:115-139`, `proto.c:89-98`. -/
def Recv.init (cfg : Cfg) : Recv := ⟨⟨false, ⟨0, []⟩⟩, List.replicate cfg.sdpSize 0⟩

/-- The `while (1)` loop of `srpc_iterate_device`, `srpc.c:436-466`: returns the packets passed to
`on_remote_call_received`. `fuel` bounds the number of iterations. The locking calls are omitted. -/
def popLoop (cfg : Cfg) (oom : Bool) : Nat → Recv → List Packet × IterEnd × Recv
  | 0, r => ([], .fuel, r)
  | fuel + 1, r =>
    match popIn cfg oom r.inb r.sdp with
    | (.packet, b, sdp) =>
      let (ps, e, r') := popLoop cfg oom fuel ⟨b, sdp⟩
      (readSdp sdp :: ps, e, r')
    | (.none, b, sdp) => ([], .ok, ⟨b, sdp⟩)
    | (.dataError, b, sdp) => ([], .dataError, ⟨b, sdp⟩)
    | (.versionError v, b, sdp) => ([], .versionError v, ⟨b, sdp⟩)
    | (.ub, b, sdp) => ([], .ub, ⟨b, sdp⟩)

/-- What `data_read` returned: `none` for a negative result (no data now), `some bytes` otherwise. -/
abbrev Read := Option Bytes

/-- `srpc_iterate_device`, `srpc.c:416-469`. -/
def iterateDevice (cfg : Cfg) (oom : Bool) (r : Recv) : Read → List Packet × IterEnd × Recv
  | none => popLoop cfg oom (r.inb.buf.data.length + 1) r
  | some [] => ([], .closed, r)
  | some (c :: cs) =>
    match append cfg oom r.inb.buf (c :: cs) with
    | .overflow => ([], .overflow, r)
    | .noMem => ([], .noMem, r)
    | .ub => ([], .ub, r)
    | .ok b => popLoop cfg oom (b.data.length + 1) ⟨⟨r.inb.beginTag, b⟩, r.sdp⟩

/-- Repeated receive passes, one per read from the connection; stops at the first pass that
does not end with `ok` (the caller then drops the connection, `supla_srpc.cpp:829-836`). -/
def receive (cfg : Cfg) (oom : Bool) : Recv → List Read → List Packet × IterEnd × Recv
  | r, [] => ([], .ok, r)
  | r, c :: cs =>
    match iterateDevice cfg oom r c with
    | (ps, .ok, r') =>
      let (qs, e, r'') := receive cfg oom r' cs
      (ps ++ qs, e, r'')
    | (ps, e, r') => (ps, e, r')

/-! ### Sending -/

/-- The bytes of a `TSuplaDataPacket` prepared by `sproto_sdp_init` (`proto.c:342-354`) and
`sproto_set_data` (`proto.c:366-377`) with the given fields; the unused tail of `data` is zero. -/
def sdpBytes (cfg : Cfg) (p : Packet) : Bytes :=
  tag ++ [UInt8.ofNat p.version] ++ le32 p.rrId ++ le32 p.callId ++ le32 p.data.length ++ p.data ++
    List.replicate (cfg.maxData - p.data.length) 0

/-- `srpc_out_queue_push` of device builds, `srpc.c:251-275` with `PACKET_INTEGRITY_BUFFER_DISABLED`
(lines 252-256 and 268-269): the bytes passed to `data_write`. -/
def outPush (cfg : Cfg) (sdp : Bytes) : Bytes :=
  let ds := rd32 sdp 14
  let n := if ds < cfg.maxData then cfg.sdpSize - (cfg.maxData - ds) else cfg.sdpSize
  sdp.take n ++ tag

/-- `sproto_out_buffer_append`, `proto.c:160-178` (non-device builds and Linux). Result flag is true
for `SUPLA_RESULT_TRUE`. -/
def outAppend (cfg : Cfg) (oom : Bool) (b : Buf) (sdp : Bytes) : Bool × Buf :=
  let packetSize := add32 headerSize (rd32 sdp 14)
  if packetSize > cfg.sdpSize then (false, b)
  else match append cfg oom b (sdp.take packetSize) with
    | .ok b1 =>
      match append cfg oom b1 tag with
      | .ok b2 => (true, b2)
      | _ => (false, b1)
    | _ => (false, b)

/-- `sproto_pop_out_data`, `proto.c:180-220`, for a non-null destination. Returns the bytes copied
out. -/
def outPop (cfg : Cfg) (oom : Bool) (b : Buf) (n : Nat) : Bytes × Buf :=
  if b.data.length = 0 ∨ n = 0 then ([], b)
  else
    let n' := if b.data.length < n then b.data.length else n
    (b.data.take n', shrink cfg oom b n')

/-- The request counter part of `sproto_sdp_init`, `proto.c:348-352`. -/
def nextRrId (n : BitVec 32) : BitVec 32 :=
  let n1 := n + 1#32
  if n1 = 0#32 then n1 + 1#32 else n1

/-- `sproto_set_version`, `proto.c:329-336`. -/
def setVersion (cfg : Cfg) (v : Nat) : Nat :=
  if v ≥ cfg.verMin ∧ v ≤ cfg.verMax then v else cfg.verMax

end Verif.Proto
