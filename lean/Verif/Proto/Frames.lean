import Verif.Proto.Lemmas

/-! Helper lemmas: what the receive loop does with whole and cut frames. -/

namespace Verif.Proto

theorem frame_length (p : Packet) : (frame p).length = 23 + p.data.length := by
  simp [frame, tag, le32]; omega

theorem byteAt_append_left {a b : Bytes} {i : Nat} (h : i < a.length) :
    byteAt (a ++ b) i = byteAt a i := by
  simp [byteAt, List.getD_eq_getElem?_getD, List.getElem?_append_left h]

theorem rd32_append_left {a b : Bytes} {i : Nat} (h : i + 3 < a.length) :
    rd32 (a ++ b) i = rd32 a i := by
  unfold rd32
  rw [byteAt_append_left (by omega), byteAt_append_left (by omega), byteAt_append_left (by omega),
    byteAt_append_left (by omega)]

theorem le32_value (n : Nat) (h : n < 2 ^ 32) :
    n % 256 % 256 + 256 * (n / 256 % 256 % 256) + 65536 * (n / 65536 % 256 % 256)
      + 16777216 * (n / 16777216 % 256 % 256) = n := by
  omega

theorem frame_version (cfg : Cfg) (h : cfg.Ok) (p : Packet) (hp : p.Valid cfg) (rest : Bytes) :
    byteAt (frame p ++ rest) 5 = p.version := by
  have := h.verByte
  have := hp.verHi
  simp [frame, tag, le32, byteAt]
  omega

theorem frame_size (cfg : Cfg) (h : cfg.Ok) (p : Packet) (hp : p.Valid cfg) (rest : Bytes) :
    rd32 (frame p ++ rest) 14 = p.data.length := by
  have := h.maxSmall
  have := h.room
  have := hp.len
  simp [frame, tag, le32, byteAt, rd32]
  omega

theorem frame_take (p : Packet) (rest : Bytes) : (frame p ++ rest).take 5 = tag := by
  simp [frame, tag]

theorem frame_end (p : Packet) (rest : Bytes) :
    ((frame p ++ rest).drop (18 + p.data.length)).take 5 = tag := by
  have : (frame p ++ rest) = (tag ++ [UInt8.ofNat p.version] ++ le32 p.rrId ++ le32 p.callId ++
    le32 p.data.length ++ p.data) ++ (tag ++ rest) := by simp [frame]
  rw [this, List.drop_left' (by simp [tag, le32]; omega)]
  simp [tag]

theorem frame_read (cfg : Cfg) (h : cfg.Ok) (p : Packet) (hp : p.Valid cfg) (sdp rest : Bytes) :
    readSdp (copyTo sdp (frame p ++ rest) (18 + p.data.length)) = p := by
  have h1 : (frame p ++ rest).take (18 + p.data.length) = tag ++ [UInt8.ofNat p.version] ++
      le32 p.rrId ++ le32 p.callId ++ le32 p.data.length ++ p.data := by
    have : (frame p ++ rest) = (tag ++ [UInt8.ofNat p.version] ++ le32 p.rrId ++ le32 p.callId ++
      le32 p.data.length ++ p.data) ++ (tag ++ rest) := by simp [frame]
    rw [this, List.take_left' (by simp [tag, le32]; omega)]
  have := h.maxSmall
  have := h.room
  have := hp.len
  have := hp.rr
  have := hp.call
  have := h.verByte
  have := hp.verHi
  have hv : p.version % 256 = p.version := by omega
  have hlen : p.data.length < 2 ^ 32 := by omega
  unfold copyTo
  rw [h1]
  generalize sdp.drop (18 + p.data.length) = t
  have e1 := le32_value p.rrId hp.rr
  have e2 := le32_value p.callId hp.call
  have e3 := le32_value p.data.length hlen
  have hd : rd32 (tag ++ [UInt8.ofNat p.version] ++
      le32 p.rrId ++ le32 p.callId ++ le32 p.data.length ++ p.data ++ t) 14 = p.data.length := by
    simp [tag, le32, byteAt, rd32]
    omega
  unfold readSdp
  rw [hd]
  cases p with
  | mk v rr cl d =>
    simp only [Packet.mk.injEq]
    refine ⟨?_, ?_, ?_, ?_⟩
    · simp [tag, le32, byteAt]; simpa using hv
    · simp [tag, le32, byteAt, rd32] at *; omega
    · simp [tag, le32, byteAt, rd32] at *; omega
    · have : tag ++ [UInt8.ofNat v] ++ le32 rr ++ le32 cl ++ le32 d.length ++ d ++ t =
        (tag ++ [UInt8.ofNat v] ++ le32 rr ++ le32 cl ++ le32 d.length) ++ (d ++ t) := by simp
      simp only [this]
      rw [List.drop_left' (by simp [tag, le32])]
      simp

/-- A complete frame at the front of the buffer is delivered and removed. -/
theorem popIn_frame (cfg : Cfg) (h : cfg.Ok) (oom : Bool) (r : Recv) (hr : r.Inv cfg) (p : Packet)
    (hp : p.Valid cfg) (rest : Bytes) (hd : r.inb.buf.data = frame p ++ rest) :
    ∃ b' sdp', popIn cfg oom r.inb r.sdp = (.packet, b', sdp') ∧ (Recv.mk b' sdp').Inv cfg ∧
      b'.buf.data = rest ∧ readSdp sdp' = p := by
  have hv := frame_version cfg h p hp rest
  have hs := frame_size cfg h p hp rest
  have ht := frame_take p rest
  have he := frame_end p rest
  have hf := frame_length p
  have hlen : (frame p ++ rest).length = 23 + p.data.length + rest.length := by simp; omega
  have hadd : add32 18 p.data.length = 18 + p.data.length := by
    have := h.maxSmall
    have := h.room
    have := hp.len
    unfold add32 two32; omega
  rcases hpop : popIn cfg oom r.inb r.sdp with ⟨res, b', sdp'⟩
  obtain ⟨hc, hinv⟩ := popIn_spec cfg h oom r hr res b' sdp' hpop
  rw [hd] at hc
  have hsz : cfg.sdpSize = 18 + cfg.maxData := rfl
  have := hp.verLo
  have := hp.verHi
  have := hp.len
  have hrd := frame_read cfg h p hp r.sdp rest
  have hdrop : (frame p ++ rest).drop (18 + p.data.length + 5) = rest :=
    List.drop_left' (by omega)
  generalize hbd : b'.buf.data = bd at hc
  generalize frame p ++ rest = data at *
  refine ⟨b', sdp', ?_, hinv, ?_⟩
  · cases hc <;> simp_all <;> omega
  · cases hc
    case packet =>
      rw [hs, hadd]
      rw [hs, hadd] at hbd
      exact ⟨hbd.trans hdrop, hrd⟩
    all_goals first
      | omega
      | (exfalso; simp_all; done)
      | (exfalso; simp_all; omega)

/-- The first bytes of a frame, cut anywhere, make the receiver wait. -/
theorem popIn_cut (cfg : Cfg) (h : cfg.Ok) (oom : Bool) (r : Recv) (hr : r.Inv cfg) (p : Packet)
    (hp : p.Valid cfg) (t : Bytes) (hd : r.inb.buf.data ++ t = frame p)
    (hcut : r.inb.buf.data.length < (frame p).length) :
    ∃ b' sdp', popIn cfg oom r.inb r.sdp = (.none, b', sdp') ∧ (Recv.mk b' sdp').Inv cfg ∧
      b'.buf.data = r.inb.buf.data := by
  have hv := frame_version cfg h p hp []
  have hs := frame_size cfg h p hp []
  have ht := frame_take p []
  simp only [List.append_nil, ← hd] at hv hs ht
  have hf := frame_length p
  rw [hf] at hcut
  have hadd : add32 18 p.data.length = 18 + p.data.length := by
    have := h.maxSmall
    have := h.room
    have := hp.len
    unfold add32 two32; omega
  rcases hpop : popIn cfg oom r.inb r.sdp with ⟨res, b', sdp'⟩
  obtain ⟨hc, hinv⟩ := popIn_spec cfg h oom r hr res b' sdp' hpop
  have hsz : cfg.sdpSize = 18 + cfg.maxData := rfl
  have := hp.verLo
  have := hp.verHi
  have := hp.len
  generalize hdd : r.inb.buf.data = data at *
  have ht' : 5 ≤ data.length → data.take 5 = tag := fun h5 => by
    rw [List.take_append_of_le_length h5] at ht; exact ht
  have hv' : 23 ≤ data.length → byteAt data 5 = p.version := fun h5 => by
    rw [byteAt_append_left (by omega)] at hv; exact hv
  have hs' : 23 ≤ data.length → rd32 data 14 = p.data.length := fun h5 => by
    rw [rd32_append_left (by omega)] at hs; exact hs
  generalize hbd : b'.buf.data = bd at hc
  refine ⟨b', sdp', ?_, hinv, ?_⟩
  all_goals
    cases hc
    case short => simp_all
    case noHeader => simp_all
    case incomplete => simp_all
    case badTag h1 h2 => exact absurd (ht' h1) h2
    all_goals
      rename_i h23 _
      have h23' : 23 ≤ data.length := by assumption
      have a := hv' h23'
      have b := hs' h23'
      simp only [a, b, hadd] at *
      omega

/-- The part of the stream in the buffer does not hold a complete first frame. -/
def Incomplete (data : Bytes) : List Packet → Prop
  | [] => data = []
  | p :: _ => data.length < (frame p).length

theorem Incomplete.length_le {cfg : Cfg} {data : Bytes} {ps : List Packet}
    (hi : Incomplete data ps) (hps : ∀ p ∈ ps, p.Valid cfg) : data.length ≤ cfg.maxData + 22 := by
  cases ps with
  | nil => simp [Incomplete] at hi; simp [hi]
  | cons p ps =>
    have := (hps p (by simp)).len
    simp only [Incomplete, frame_length] at hi
    omega

theorem prefix_cases {a t f s : Bytes} (h : a ++ t = f ++ s) :
    (a.length < f.length ∧ ∃ t', a ++ t' = f) ∨ ∃ rest, a = f ++ rest ∧ rest ++ t = s := by
  rcases List.append_eq_append_iff.mp h with ⟨x, h1, h2⟩ | ⟨x, h1, h2⟩
  · by_cases hx : x = []
    · subst hx
      right
      exact ⟨[], by simp at h1 ⊢; exact h1.symm, by simp at h2 ⊢; exact h2⟩
    · left
      refine ⟨?_, x, h1.symm⟩
      have : x.length ≠ 0 := by simpa using hx
      rw [h1]; simp; omega
  · right
    exact ⟨x, h1, h2.symm⟩

theorem popLoop_stream (cfg : Cfg) (h : cfg.Ok) (oom : Bool) (ps : List Packet)
    (hps : ∀ p ∈ ps, p.Valid cfg) : ∀ (fuel : Nat) (r : Recv) (tail : Bytes), r.Inv cfg →
    r.inb.buf.data ++ tail = stream ps → r.inb.buf.data.length < fuel →
    ∃ k r', popLoop cfg oom fuel r = (ps.take k, .ok, r') ∧ r'.Inv cfg ∧
      r'.inb.buf.data ++ tail = stream (ps.drop k) ∧ Incomplete r'.inb.buf.data (ps.drop k) := by
  induction ps with
  | nil =>
    intro fuel r tail hr hd hf
    have hd0 : r.inb.buf.data = [] := by simp [stream] at hd; exact hd.1
    rcases fuel with _ | fuel
    · omega
    · rcases hpop : popIn cfg oom r.inb r.sdp with ⟨res, b', sdp'⟩
      obtain ⟨hc, hinv⟩ := popIn_spec cfg h oom r hr res b' sdp' hpop
      rw [hd0] at hc
      generalize hbd : b'.buf.data = bd at hc
      cases hc
      case short =>
        refine ⟨0, ⟨b', r.sdp⟩, ?_, ?_, ?_, ?_⟩
        · simp only [popLoop, hpop, List.take_nil]
        · simpa using hinv
        · simp [stream] at hd
          simp [stream, hbd, hd]
        · simp [Incomplete, hbd]
      all_goals
        rename_i h1 h2
        simp at *
  | cons p ps ih =>
    intro fuel r tail hr hd hf
    have hp := hps p (by simp)
    rcases fuel with _ | fuel
    · omega
    · have hd' : r.inb.buf.data ++ tail = frame p ++ stream ps := by simpa [stream] using hd
      rcases prefix_cases hd' with ⟨hcut, t', ht'⟩ | ⟨rest, h1, h2⟩
      · obtain ⟨b', sdp', hpop, hinv, hbd⟩ := popIn_cut cfg h oom r hr p hp t' ht' hcut
        refine ⟨0, ⟨b', sdp'⟩, ?_, hinv, ?_, ?_⟩
        · simp only [popLoop, hpop, List.take_zero]
        · simp only [hbd, List.drop_zero]; exact hd
        · simp only [hbd, List.drop_zero, Incomplete]; exact hcut
      · obtain ⟨b', sdp', hpop, hinv, hbd, hrd⟩ := popIn_frame cfg h oom r hr p hp rest h1
        have hfl := frame_length p
        have hlen : r.inb.buf.data.length = (frame p).length + rest.length := by rw [h1]; simp
        obtain ⟨k, r', h3, h4, h5, h6⟩ := ih (fun q hq => hps q (by simp [hq])) fuel ⟨b', sdp'⟩ tail
          hinv (by simpa [hbd] using h2) (by simp only [hbd]; omega)
        refine ⟨k + 1, r', ?_, h4, ?_, ?_⟩
        · simp only [popLoop, hpop, h3, hrd, List.take_succ_cons]
        · simpa using h5
        · simpa using h6

theorem receive_stream (cfg : Cfg) (h : cfg.Ok) (reads : List Read) : ∀ (ps : List Packet)
    (r : Recv) (tail : Bytes), (∀ p ∈ ps, p.Valid cfg) → ReadsOk cfg reads → r.Inv cfg →
    r.inb.buf.data ++ received reads ++ tail = stream ps → Incomplete r.inb.buf.data ps →
    ∃ k r', receive cfg false r reads = (ps.take k, .ok, r') ∧ r'.Inv cfg ∧
      r'.inb.buf.data ++ tail = stream (ps.drop k) ∧ Incomplete r'.inb.buf.data (ps.drop k) := by
  induction reads with
  | nil =>
    intro ps r tail hps hro hr hd hi
    exact ⟨0, r, by simp [receive], hr, by simpa [received] using hd, by simpa using hi⟩
  | cons c cs ih =>
    intro ps r tail hps hro hr hd hi
    have hro' : ReadsOk cfg cs := fun c hc => hro c (by simp [hc])
    have key : ∃ k r', iterateDevice cfg false r c = (ps.take k, .ok, r') ∧ r'.Inv cfg ∧
        r'.inb.buf.data ++ (received cs ++ tail) = stream (ps.drop k) ∧
        Incomplete r'.inb.buf.data (ps.drop k) := by
      cases c with
      | none =>
        have := popLoop_stream cfg h false ps hps (r.inb.buf.data.length + 1) r (received cs ++ tail)
          hr (by simpa [received] using hd) (by omega)
        simpa [iterateDevice] using this
      | some c =>
        obtain ⟨hc1, hc2⟩ := hro c (by simp)
        cases c with
        | nil => simp at hc1
        | cons x xs =>
          have hl := hi.length_le hps
          have := h.room
          obtain ⟨b', ha, hbi, hbd⟩ := append_fits cfg h r.inb.buf hr.buf (x :: xs)
            (by omega)
          have hinv : (Recv.mk ⟨r.inb.beginTag, b'⟩ r.sdp).Inv cfg := by
            refine ⟨hbi, ?_, hr.sdp⟩
            intro hb
            have h5 := hr.tagSeen hb
            simp only [hbd]
            rw [List.take_append_of_le_length (take5_length h5)]
            exact h5
          have := popLoop_stream cfg h false ps hps (b'.data.length + 1)
            ⟨⟨r.inb.beginTag, b'⟩, r.sdp⟩ (received cs ++ tail) hinv
            (by simp only [hbd]; simpa [received] using hd) (by simp only []; omega)
          simpa [iterateDevice, ha] using this
    obtain ⟨k, r', h1, h2, h3, h4⟩ := key
    obtain ⟨k2, r2, h5, h6, h7, h8⟩ := ih (ps.drop k) r' tail
      (fun q hq => hps q (List.mem_of_mem_drop hq)) hro' h2 (by simpa using h3) h4
    refine ⟨k + k2, r2, ?_, h6, ?_, ?_⟩
    · simp only [receive, h1, h5]
      rw [List.take_add]
    · rw [← List.drop_drop]; exact h7
    · rw [← List.drop_drop]; exact h8

end Verif.Proto
