import Verif.Proto.Safe

/-!
# C01–C05: the SUPLA packet layer

Vocabulary: `frame`, `stream`, `received`, `ReadsOk`, `Packet.Valid`, `NoHugeField`
(`Verif/Proto/Spec.lean`).
-/

namespace Verif.Proto

/-! ## C01 -/

/-- **C01 (receiver).** A peer sends the valid packets `ps`; `sent` so far has arrived, cut into
`reads` in any way (and with any number of empty polls in between). Then the receiver hands over a
prefix of `ps`, without any error, and it never lags: every packet whose last byte has arrived has
been delivered. -/
theorem framing_round_trip (cfg : Cfg) (h : cfg.Ok) (ps : List Packet)
    (hps : ∀ p ∈ ps, p.Valid cfg) (reads : List Read) (hro : ReadsOk cfg reads) (unsent : Bytes)
    (hsent : received reads ++ unsent = stream ps) :
    let out := receive cfg false (Recv.init cfg) reads
    out.2.1 = .ok ∧ out.1 <+: ps ∧ stream out.1 <+: received reads ∧
      ∀ k ≤ ps.length, (stream (ps.take k)).length ≤ (received reads).length → k ≤ out.1.length := by
  have hi : Incomplete (Recv.init cfg).inb.buf.data ps := by
    cases ps with
    | nil => simp [Incomplete, Recv.init]
    | cons p ps => simp [Incomplete, Recv.init, frame_length]; omega
  obtain ⟨k, r', h1, h2, h3, h4⟩ := receive_stream cfg h reads ps (Recv.init cfg) unsent hps hro
    (init_inv cfg h) (by simpa [Recv.init] using hsent) hi
  have hsplit : stream ps = stream (ps.take k) ++ stream (ps.drop k) := by
    rw [stream, stream, stream, ← List.flatMap_append, List.take_append_drop]
  have hrec : received reads = stream (ps.take k) ++ r'.inb.buf.data := by
    have : received reads ++ unsent = (stream (ps.take k) ++ r'.inb.buf.data) ++ unsent := by
      rw [hsent, hsplit, ← h3, List.append_assoc]
    exact List.append_cancel_right this
  simp only [h1]
  refine ⟨trivial, List.take_prefix k ps, ⟨_, hrec.symm⟩, ?_⟩
  intro j hj hle
  rw [List.length_take]
  rcases Nat.lt_or_ge k j with hkj | hkj
  · exfalso
    -- the j-th packet would be complete
    have hd : ∃ q qs, ps.drop k = q :: qs := by
      cases hc : ps.drop k with
      | nil => have := congrArg List.length hc; simp at this; omega
      | cons q qs => exact ⟨q, qs, rfl⟩
    obtain ⟨q, qs, hq⟩ := hd
    rw [hq] at h4
    simp only [Incomplete] at h4
    have hj2 : ps.take j = ps.take k ++ (ps.drop k).take (j - k) := by
      rw [← List.take_add]; congr 1; omega
    rw [hj2, hq] at hle
    obtain ⟨m, hm⟩ : ∃ m, j - k = m + 1 := ⟨j - k - 1, by omega⟩
    rw [hm, hrec] at hle
    simp [stream] at hle
    omega
  · omega

/-- **C01 (end to end).** The bytes the sending side writes for `ps` (the direct-write path of device
builds), received in pieces of any size, are decoded to exactly `ps`. -/
theorem send_receive_round_trip (cfg : Cfg) (h : cfg.Ok) (ps : List Packet)
    (hps : ∀ p ∈ ps, p.Valid cfg) (reads : List Read) (hro : ReadsOk cfg reads)
    (hsent : received reads = ps.flatMap (fun p => outPush cfg (sdpBytes cfg p))) :
    (receive cfg false (Recv.init cfg) reads).1 = ps ∧
      (receive cfg false (Recv.init cfg) reads).2.1 = .ok := by
  have hout : ∀ p ∈ ps, outPush cfg (sdpBytes cfg p) = frame p := by
    intro p hp
    have hlen := (hps p hp).len
    have hmax := h.maxSmall
    have hroom := h.room
    have hd : rd32 (sdpBytes cfg p) 14 = p.data.length := by
      simp [sdpBytes, tag, le32, byteAt, rd32]
      omega
    have hn : (if p.data.length < cfg.maxData then cfg.sdpSize - (cfg.maxData - p.data.length)
        else cfg.sdpSize) = 18 + p.data.length := by
      unfold Cfg.sdpSize headerSize
      split <;> omega
    have ht : (sdpBytes cfg p).take (18 + p.data.length) = tag ++ [UInt8.ofNat p.version] ++
        le32 p.rrId ++ le32 p.callId ++ le32 p.data.length ++ p.data := by
      unfold sdpBytes
      rw [List.take_left' (by simp [tag, le32]; omega)]
    unfold outPush
    simp only [hd, hn, ht, frame]
  have hst : received reads = stream ps := by
    rw [hsent, stream]
    clear hsent
    induction ps with
    | nil => rfl
    | cons p ps ih =>
      rw [List.flatMap_cons, List.flatMap_cons, hout p (by simp),
        ih (fun q hq => hps q (by simp [hq])) (fun q hq => hout q (by simp [hq]))]
  obtain ⟨h1, h2, _, h4⟩ := framing_round_trip cfg h ps hps reads hro [] (by simpa using hst)
  have hk := h4 ps.length (Nat.le_refl _) (by rw [List.take_length, hst]; exact Nat.le_refl _)
  exact ⟨h2.eq_of_length_le hk, h1⟩

/-- Two packets, the second arriving cut in the middle of its header: hypotheses met on ESP. -/
example : (receive cfgEsp false (Recv.init cfgEsp)
      [some ((frame ⟨25, 7, 40, [1, 2, 3]⟩) ++ (frame ⟨10, 8, 41, []⟩).take 9), none,
       some ((frame ⟨10, 8, 41, []⟩).drop 9)]).1 = [⟨25, 7, 40, [1, 2, 3]⟩, ⟨10, 8, 41, []⟩] := by
  have := send_receive_round_trip cfgEsp cfgEsp_ok [⟨25, 7, 40, [1, 2, 3]⟩, ⟨10, 8, 41, []⟩]
    (by
      intro p hp
      simp at hp
      rcases hp with rfl | rfl <;> exact ⟨by decide, by decide, by decide, by decide, by decide⟩)
    [some ((frame ⟨25, 7, 40, [1, 2, 3]⟩) ++ (frame ⟨10, 8, 41, []⟩).take 9), none,
       some ((frame ⟨10, 8, 41, []⟩).drop 9)]
    (by
      intro c hc
      simp at hc
      rcases hc with rfl | rfl <;> decide)
    (by decide +kernel)
  exact this.1

/-! ## C02 -/

/-- The full claim C02 about a configuration: whatever bytes arrive, they start with the frames of
the delivered packets, and these are valid. -/
def DeliveredWereSent (cfg : Cfg) : Prop :=
  ∀ (oom : Bool) (reads : List Read), (∀ c, some c ∈ reads → c.length ≤ cfg.readMax) →
    (∀ p ∈ (receive cfg oom (Recv.init cfg) reads).1, p.Valid cfg) ∧
      stream (receive cfg oom (Recv.init cfg) reads).1 <+: received reads

/-- A header whose length field is 2^32-18, so that header size plus length wraps to zero. -/
def wrapHeader : Bytes := tag ++ [5] ++ le32 1 ++ le32 2 ++ le32 0xFFFFFFEE ++ [0, 0, 0, 0, 0]

/-- **C02 is false of the code.** `header_size + data_size` wraps: the receiver accepts the header
above as a complete packet (the opening tag doubles as the closing tag), hands over the previous
content of its packet structure - here the previous packet a second time - and consumes 5 bytes. -/
theorem delivered_were_sent_violation : ¬ DeliveredWereSent cfgEsp := by
  intro h
  have := (h false [some (frame ⟨25, 7, 40, [1, 2]⟩ ++ wrapHeader)] (by
    intro c hc; simp at hc; subst hc; decide)).2
  revert this
  decide +kernel

/-- What happens in that run: the packet is delivered twice although it was sent once. -/
example : (receive cfgEsp false (Recv.init cfgEsp)
    [some (frame ⟨25, 7, 40, [1, 2]⟩ ++ wrapHeader)]).1 =
    [⟨25, 7, 40, [1, 2]⟩, ⟨25, 7, 40, [1, 2]⟩] := by decide +kernel

/-- **C02 (partial).** On any input that nowhere contains one of the 18 wrapping length values, the
received bytes begin with the frames of the delivered packets, in order and back to back, and every
delivered packet has a supported version and a payload within the limit. What is missing with
respect to `DeliveredWereSent`: inputs containing such a value, for which the claim fails. -/
theorem delivered_were_sent_partial (cfg : Cfg) (h : cfg.Ok) (oom : Bool) (reads : List Read)
    (hro : ∀ c, some c ∈ reads → c.length ≤ cfg.readMax) (hn : NoHugeField (received reads)) :
    (∀ p ∈ (receive cfg oom (Recv.init cfg) reads).1, p.Valid cfg) ∧
      stream (receive cfg oom (Recv.init cfg) reads).1 <+: received reads := by
  rcases he : receive cfg oom (Recv.init cfg) reads with ⟨ps, e, r'⟩
  obtain ⟨_, _, _, _, _, h6⟩ := receive_safe cfg h oom reads (Recv.init cfg) (init_inv cfg h)
    (by simp [Recv.init]) hro ps e r' he
  obtain ⟨h7, rest, h8, _⟩ := h6 (by simpa [Recv.init] using hn)
  exact ⟨h7, rest, by simpa [Recv.init] using h8.symm⟩

/-- Hypotheses met by hostile input: a good frame followed by garbage. -/
example : NoHugeField (received [some (frame ⟨25, 7, 40, [1, 2]⟩ ++ [9, 9, 9, 9, 9, 9])]) := by
  intro i
  by_cases hi : i < 40
  · have : ∀ i : Fin 40, rd32 (received [some (frame ⟨25, 7, 40, [1, 2]⟩ ++ [9, 9, 9, 9, 9, 9])]) i.val
        < 2 ^ 32 - 18 := by decide +kernel
    exact this ⟨i, hi⟩
  · have hl : (received [some (frame ⟨25, 7, 40, [1, 2]⟩ ++ [9, 9, 9, 9, 9, 9])]).length = 31 := by
      decide
    have h0 : ∀ j, 31 ≤ j →
        byteAt (received [some (frame ⟨25, 7, 40, [1, 2]⟩ ++ [9, 9, 9, 9, 9, 9])]) j = 0 := by
      intro j hj
      rw [← hl] at hj
      simp only [byteAt, List.getD_eq_getElem?_getD, List.getElem?_eq_none hj]
      rfl
    unfold rd32
    rw [h0 _ (by omega), h0 _ (by omega), h0 _ (by omega), h0 _ (by omega)]
    decide

/-! ## C03 -/

/-- **C03 (receive path).** Whatever the peer sends, however it is cut and whether or not memory
allocations fail, the receiver never accesses memory outside its buffers (`ub`), never runs into the
buffer limit, always terminates, and the stored bytes fit the allocation, which stays below the
configured maximum. The only ways a receive pass ends other than `ok` are a refused allocation, a
data error, a version error or a closed connection. -/
theorem receive_memory_safe (cfg : Cfg) (h : cfg.Ok) (oom : Bool) (reads : List Read)
    (hro : ∀ c, some c ∈ reads → c.length ≤ cfg.readMax) :
    let out := receive cfg oom (Recv.init cfg) reads
    out.2.1 ≠ .ub ∧ out.2.1 ≠ .fuel ∧ out.2.1 ≠ .overflow ∧ (out.2.1 = .noMem → oom = true) ∧
      out.2.2.inb.buf.data.length ≤ out.2.2.inb.buf.size ∧
      out.2.2.inb.buf.size < cfg.bufMax ∧ out.2.2.sdp.length = cfg.sdpSize := by
  rcases he : receive cfg oom (Recv.init cfg) reads with ⟨ps, e, r'⟩
  obtain ⟨h1, h2, h3, h4, h5, _⟩ := receive_safe cfg h oom reads (Recv.init cfg) (init_inv cfg h)
    (by simp [Recv.init]) hro ps e r' he
  exact ⟨h1, h2, h3, h4, h5.buf.fits, h5.buf.bounded, h5.sdp⟩

example := receive_memory_safe cfgAvr cfgAvr_ok true
  [some wrapHeader, none, some [83, 85, 80], some [], some [1, 2, 3]]
  (by intro c hc; simp at hc; rcases hc with rfl | rfl | rfl | rfl <;> decide)

/-- Operations on one growable buffer (used by both directions). -/
inductive BufOp where
  | add (oom : Bool) (d : Bytes)
  | remove (oom : Bool) (n : Nat)

/-- A refused append leaves the buffer as it was (`*buffer_size`, `*buffer_data_size` are written
only on success, `proto.c:135-147`). `none` is undefined behaviour. -/
def BufOp.run (cfg : Cfg) (b : Buf) : BufOp → Option Buf
  | .add oom d => match append cfg oom b d with
    | .ok b' => some b'
    | .overflow | .noMem => some b
    | .ub => none
  | .remove oom n => some (shrink cfg oom b n)

/-- A history of operations. -/
def runOps (cfg : Cfg) : Buf → List BufOp → Option Buf
  | b, [] => some b
  | b, op :: ops => (op.run cfg b).bind fun b' => runOps cfg b' ops

/-- **C03 (any history).** After any sequence of appends and removals with any data and any
allocation failures no memory outside the buffer was touched, the stored bytes fit the allocated
size and the allocated size is below the configured maximum. -/
theorem buffer_history_safe (cfg : Cfg) (h : cfg.Ok) (ops : List BufOp)
    (hops : ∀ oom d, BufOp.add oom d ∈ ops → d.length < 2 ^ 31) :
    ∃ b, runOps cfg ⟨0, []⟩ ops = some b ∧ b.data.length ≤ b.size ∧ b.size < cfg.bufMax := by
  have gen : ∀ b : Buf, b.Inv cfg → ∃ b', runOps cfg b ops = some b' ∧ b'.Inv cfg := by
    induction ops with
    | nil => exact fun b hb => ⟨b, rfl, hb⟩
    | cons op ops ih =>
      intro b hb
      have ih' := ih (fun oom d hd => hops oom d (by simp [hd]))
      cases op with
      | add oom d =>
        rcases append_spec cfg h oom b hb d (hops oom d (by simp)) with ⟨ha, _⟩ | ⟨ha, _⟩ | ⟨b', ha, hbi, _⟩
        · obtain ⟨b2, h1, h2⟩ := ih' b hb
          exact ⟨b2, by simp [runOps, BufOp.run, ha, h1], h2⟩
        · obtain ⟨b2, h1, h2⟩ := ih' b hb
          exact ⟨b2, by simp [runOps, BufOp.run, ha, h1], h2⟩
        · obtain ⟨b2, h1, h2⟩ := ih' b' hbi
          exact ⟨b2, by simp [runOps, BufOp.run, ha, h1], h2⟩
      | remove oom n =>
        obtain ⟨b2, h1, h2⟩ := ih' _ (shrink_spec cfg h oom b hb n).1
        exact ⟨b2, by simp [runOps, BufOp.run, h1], h2⟩
  have h0 : (⟨0, []⟩ : Buf).Inv cfg := ⟨by simp, by have := h.minMax; simp; omega⟩
  obtain ⟨b, h1, h2⟩ := gen _ h0
  exact ⟨b, h1, h2.fits, h2.bounded⟩

/-- The exact condition under which an append is refused when memory is available: the stored and the
new bytes together reach the maximum. So nothing is refused needlessly as long as the allocation has
been trimmed to the content, and a refusal never loses stored bytes (`BufOp.run`). -/
theorem append_accepted (cfg : Cfg) (h : cfg.Ok) (b : Buf) (hfits : b.data.length ≤ b.size)
    (hb : b.size < cfg.bufMax) (d : Bytes) (hd : b.data.length + d.length < cfg.bufMax) :
    ∃ size, append cfg false b d = .ok ⟨size, b.data ++ d⟩ := by
  obtain ⟨b', h1, _, h2⟩ := append_fits cfg h b ⟨hfits, hb⟩ d hd
  exact ⟨b'.size, by rw [h1, ← h2]⟩

example : (runOps cfgAvr ⟨0, []⟩ [.add false (List.replicate 40 1), .remove false 3,
    .add true (List.replicate 2000 2), .add false [7]]).map (·.data.length) = some 38 := by
  decide +kernel

/-! ## C04 -/

/-- Requests to the sending side. -/
inductive OutOp where
  | send (p : Packet)
  | drain (n : Nat)

/-- Output side run: bytes handed to the network so far, packets accepted, buffer. -/
def runOut (cfg : Cfg) : Bytes → List Packet → Buf → List OutOp → Bytes × List Packet × Buf
  | net, acc, b, [] => (net, acc, b)
  | net, acc, b, .send p :: ops =>
    let (ok, b') := outAppend cfg false b (sdpBytes cfg p)
    runOut cfg net (if ok then acc ++ [p] else acc) b' ops
  | net, acc, b, .drain n :: ops =>
    let (d, b') := outPop cfg false b n
    runOut cfg (net ++ d) acc b' ops

/-- The full claim C04. -/
def OutFifo (cfg : Cfg) : Prop :=
  ∀ ops, (∀ p, OutOp.send p ∈ ops → p.Valid cfg) →
    let out := runOut cfg [] [] ⟨0, []⟩ ops
    out.1 ++ out.2.2.data = stream out.2.1

/-- **C04 is false of the code** (builds that use the output buffer): a packet is appended in two
steps and when only the closing tag does not fit, the refused packet stays in the buffer. -/
theorem out_fifo_violation : ¬ OutFifo cfgAvr := by
  intro h
  have := h [.send ⟨25, 1, 1, List.replicate 600 7⟩, .send ⟨25, 1, 1, List.replicate 380 7⟩] (by
    intro p hp
    simp only [List.mem_cons, OutOp.send.injEq, List.not_mem_nil, or_false] at hp
    rcases hp with rfl | rfl <;>
      exact ⟨by decide, by decide, by decide, by decide, by rw [List.length_replicate]; decide⟩)
  revert this
  decide +kernel

theorem outAppend_ok (cfg : Cfg) (h : cfg.Ok) (b : Buf) (hb : b.Inv cfg) (p : Packet)
    (hp : p.Valid cfg) (hroom : b.data.length + p.data.length + 23 < cfg.bufMax) :
    ∃ b', outAppend cfg false b (sdpBytes cfg p) = (true, b') ∧ b'.Inv cfg ∧
      b'.data = b.data ++ frame p := by
  have hlen := hp.len
  have hmax := h.maxSmall
  have hro := h.room
  have hd : rd32 (sdpBytes cfg p) 14 = p.data.length := by
    simp [sdpBytes, tag, le32, byteAt, rd32]
    omega
  have ha : add32 headerSize p.data.length = 18 + p.data.length := by
    unfold add32 headerSize two32; omega
  have ht : (sdpBytes cfg p).take (18 + p.data.length) = tag ++ [UInt8.ofNat p.version] ++
      le32 p.rrId ++ le32 p.callId ++ le32 p.data.length ++ p.data := by
    unfold sdpBytes
    rw [List.take_left' (by simp [tag, le32]; omega)]
  have hle : ¬ (18 + p.data.length > cfg.sdpSize) := by unfold Cfg.sdpSize headerSize; omega
  have hl2 : ((sdpBytes cfg p).take (18 + p.data.length)).length = 18 + p.data.length := by
    rw [ht]; simp [tag, le32]; omega
  obtain ⟨b1, h1, h2, h3⟩ := append_fits cfg h b hb ((sdpBytes cfg p).take (18 + p.data.length))
    (by rw [hl2]; omega)
  obtain ⟨b2, h4, h5, h6⟩ := append_fits cfg h b1 h2 tag (by
    rw [h3, List.length_append, hl2]; simp [tag]; omega)
  refine ⟨b2, ?_, h5, ?_⟩
  · simp only [outAppend, hd, ha, hle, if_false, h1, h4]
  · rw [h6, h3, ht]
    simp [frame]

/-- Buffered bytes never come within 23 + payload bytes of the limit. -/
def RoomyRun (cfg : Cfg) : Buf → List OutOp → Prop
  | _, [] => True
  | b, .send p :: ops => b.data.length + p.data.length + 23 < cfg.bufMax ∧
      RoomyRun cfg (outAppend cfg false b (sdpBytes cfg p)).2 ops
  | b, .drain n :: ops => RoomyRun cfg (outPop cfg false b n).2 ops

/-- **C04 (partial).** While there is room in the output buffer for each packet being sent, every
packet is accepted and the bytes handed to the network, followed by those still buffered, are exactly
the encodings of the packets sent, in order, whatever the sizes of the drain requests. Missing with
respect to `OutFifo`: runs in which the buffer limit is reached (the claim fails there). -/
theorem out_fifo_partial (cfg : Cfg) (h : cfg.Ok) (ops : List OutOp)
    (hv : ∀ p, OutOp.send p ∈ ops → p.Valid cfg) (hroom : RoomyRun cfg ⟨0, []⟩ ops) :
    let out := runOut cfg [] [] ⟨0, []⟩ ops
    out.1 ++ out.2.2.data = stream out.2.1 ∧
      out.2.1 = ops.filterMap (fun | .send p => some p | .drain _ => none) := by
  have gen : ∀ (net : Bytes) (acc : List Packet) (b : Buf), b.Inv cfg → RoomyRun cfg b ops →
      net ++ b.data = stream acc →
      (runOut cfg net acc b ops).1 ++ (runOut cfg net acc b ops).2.2.data =
        stream (runOut cfg net acc b ops).2.1 ∧
      (runOut cfg net acc b ops).2.1 =
        acc ++ ops.filterMap (fun | .send p => some p | .drain _ => none) := by
    clear hroom
    induction ops with
    | nil => intro net acc b _ _ he; exact ⟨he, by simp [runOut]⟩
    | cons op ops ih =>
      intro net acc b hb hr he
      have ih' := ih (fun p hp => hv p (by simp [hp]))
      cases op with
      | send p =>
        obtain ⟨hr1, hr2⟩ := hr
        obtain ⟨b', h1, h2, h3⟩ := outAppend_ok cfg h b hb p (hv p (by simp)) hr1
        rw [h1] at hr2
        have := ih' net (acc ++ [p]) b' h2 hr2 (by
          rw [h3, ← List.append_assoc, he]; simp [stream])
        simpa [runOut, h1] using this
      | drain n =>
        simp only [RoomyRun] at hr
        have hpop : (outPop cfg false b n).1 ++ (outPop cfg false b n).2.data = b.data ∧
            (outPop cfg false b n).2.Inv cfg := by
          unfold outPop
          split
          · exact ⟨by simp, hb⟩
          · have hs := shrink_spec cfg h false b hb (if b.data.length < n then b.data.length else n)
            exact ⟨by rw [hs.2, List.take_append_drop], hs.1⟩
        have := ih' (net ++ (outPop cfg false b n).1) acc _ hpop.2 hr (by
          rw [List.append_assoc, hpop.1, he])
        simpa [runOut] using this
  have h0 : (⟨0, []⟩ : Buf).Inv cfg := ⟨by simp, by have := h.minMax; simp; omega⟩
  simpa using gen [] [] _ h0 hroom (by simp [stream])

example : RoomyRun cfgAvr ⟨0, []⟩
    [.send ⟨25, 1, 1, [1, 2, 3]⟩, .drain 7, .send ⟨25, 2, 1, []⟩, .drain 100] := by
  simp only [RoomyRun]
  decide +kernel

/-! ## C05 -/

/-- The counter after `n` further preparations. -/
def rrAfter : Nat → BitVec 32 → BitVec 32
  | 0, s => s
  | n + 1, s => rrAfter n (nextRrId s)

/-- `nextRrId` seen on the ring 1 … 2^32-1. -/
theorem nextRrId_toNat (s : BitVec 32) :
    (nextRrId s).toNat = s.toNat % (2 ^ 32 - 1) + 1 := by
  have hs := s.isLt
  unfold nextRrId
  simp only []
  split
  · rename_i hz
    have h1 := congrArg BitVec.toNat hz
    simp [BitVec.toNat_add] at h1
    rw [hz]
    simp
    omega
  · rename_i hz
    have h1 : (s + 1#32).toNat ≠ 0 := fun he => hz (BitVec.eq_of_toNat_eq (by simpa using he))
    simp [BitVec.toNat_add] at h1 ⊢
    omega

theorem rrAfter_toNat (n : Nat) : ∀ s : BitVec 32,
    (rrAfter (n + 1) s).toNat = (s.toNat + n) % (2 ^ 32 - 1) + 1 := by
  induction n with
  | zero => intro s; simp [rrAfter, nextRrId_toNat]
  | succ n ih =>
    intro s
    have := ih (nextRrId s)
    simp only [rrAfter] at this ⊢
    rw [this, nextRrId_toNat]
    omega

/-- **C05.** From any counter value (a fresh connection starts with 0), no prepared packet gets the
id 0, and the ids of two different preparations less than 2^32-1 apart differ. -/
theorem rr_id_unique (s : BitVec 32) (i j : Nat) :
    rrAfter (i + 1) s ≠ 0 ∧
      (i < j → j - i < 2 ^ 32 - 1 → rrAfter (i + 1) s ≠ rrAfter (j + 1) s) := by
  refine ⟨?_, ?_⟩
  · intro h
    have := congrArg BitVec.toNat h
    rw [rrAfter_toNat] at this
    simp at this
  · intro hij hw h
    have := congrArg BitVec.toNat h
    rw [rrAfter_toNat, rrAfter_toNat] at this
    omega

/-- Around the wrap-around the id skips zero. -/
example : rrAfter 1 0xFFFFFFFE = 0xFFFFFFFF ∧ rrAfter 2 0xFFFFFFFE = 1 := by decide
example : rrAfter 1 0xFFFFFFFE ≠ rrAfter 2 0xFFFFFFFE :=
  (rr_id_unique 0xFFFFFFFE 0 1).2 (by decide) (by decide)

/-- The version announced by the device is always one its own receiver accepts. -/
theorem version_always_supported (cfg : Cfg) (h : cfg.Ok) (v : Nat) :
    cfg.verMin ≤ setVersion cfg v ∧ setVersion cfg v ≤ cfg.verMax := by
  have := h.ver
  unfold setVersion
  split <;> omega

example : setVersion cfgEsp 200 = 25 ∧ setVersion cfgEsp 7 = 7 := by decide

end Verif.Proto
