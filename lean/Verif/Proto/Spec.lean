import Verif.Proto.Model

/-!
# Vocabulary of the framing claims

`frame p` is the wire form of a packet, written down directly from the protocol description
(`/repo/src/supla-common/proto.h:652-659`: packed struct, closing tag appended by the sender);
`Valid` says when a packet may be sent.
-/

namespace Verif.Proto

/-- Wire form of a packet. -/
def frame (p : Packet) : Bytes :=
  tag ++ [UInt8.ofNat p.version] ++ le32 p.rrId ++ le32 p.callId ++ le32 p.data.length ++ p.data ++ tag

/-- A packet a conforming peer may send. -/
structure Packet.Valid (cfg : Cfg) (p : Packet) : Prop where
  verLo : cfg.verMin ≤ p.version
  verHi : p.version ≤ cfg.verMax
  rr : p.rrId < 2 ^ 32
  call : p.callId < 2 ^ 32
  len : p.data.length ≤ cfg.maxData

/-- Relations between the compile-time constants that the code relies on; met by every device build
(`cfgEsp_ok`, `cfgAvr_ok`, `cfgLinux_ok`). -/
structure Cfg.Ok (cfg : Cfg) : Prop where
  minMax : cfg.bufMin < cfg.bufMax
  maxSmall : cfg.bufMax ≤ 2 ^ 31
  room : cfg.maxData + 22 + cfg.readMax < cfg.bufMax
  ver : cfg.verMin ≤ cfg.verMax
  verByte : cfg.verMax < 256

theorem cfgEsp_ok : cfgEsp.Ok := ⟨by decide, by decide, by decide, by decide, by decide⟩
theorem cfgAvr_ok : cfgAvr.Ok := ⟨by decide, by decide, by decide, by decide, by decide⟩
theorem cfgLinux_ok : cfgLinux.Ok := ⟨by decide, by decide, by decide, by decide, by decide⟩

/-- All frames of a packet list, back to back: the byte stream a peer sends. -/
def stream (ps : List Packet) : Bytes := ps.flatMap frame

/-- The bytes delivered by a sequence of reads. -/
def received : List Read → Bytes
  | [] => []
  | none :: rs => received rs
  | some c :: rs => c ++ received rs

/-- Reads that the connection layer can produce: never longer than the read buffer, and the
connection is not closed (a zero result) in between. -/
def ReadsOk (cfg : Cfg) (rs : List Read) : Prop :=
  ∀ c, some c ∈ rs → 0 < c.length ∧ c.length ≤ cfg.readMax

/-- No four consecutive bytes of the input form, read as a little-endian number, one of the 18
values 2^32-18 ... 2^32-1 (bytes past the end count as zero). -/
def NoHugeField (s : Bytes) : Prop := ∀ i, rd32 s i < 2 ^ 32 - 18

end Verif.Proto
