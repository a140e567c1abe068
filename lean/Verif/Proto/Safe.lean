import Verif.Proto.Frames

/-! Helper lemmas: the receive loop on arbitrary (hostile) input. -/

namespace Verif.Proto

theorem le32_of_bytes (a b c d : UInt8) :
    le32 (a.toNat + 256 * b.toNat + 65536 * c.toNat + 16777216 * d.toNat) = [a, b, c, d] := by
  have ha := a.toNat_lt
  have hb := b.toNat_lt
  have hc := c.toNat_lt
  have hd := d.toNat_lt
  unfold le32
  have e1 : (a.toNat + 256 * b.toNat + 65536 * c.toNat + 16777216 * d.toNat) % 256 = a.toNat := by omega
  have e2 : (a.toNat + 256 * b.toNat + 65536 * c.toNat + 16777216 * d.toNat) / 256 % 256 = b.toNat := by omega
  have e3 : (a.toNat + 256 * b.toNat + 65536 * c.toNat + 16777216 * d.toNat) / 65536 % 256 = c.toNat := by omega
  have e4 : (a.toNat + 256 * b.toNat + 65536 * c.toNat + 16777216 * d.toNat) / 16777216 % 256 = d.toNat := by omega
  rw [e1, e2, e3, e4]
  simp

theorem split18 (l : Bytes) (h : 18 ≤ l.length) :
    ∃ a0 a1 a2 a3 a4 a5 a6 a7 a8 a9 a10 a11 a12 a13 a14 a15 a16 a17 r,
      l = a0 :: a1 :: a2 :: a3 :: a4 :: a5 :: a6 :: a7 :: a8 :: a9 :: a10 :: a11 :: a12 :: a13 ::
        a14 :: a15 :: a16 :: a17 :: r := by
  iterate 18
    rcases l with _ | ⟨_, l⟩
    · simp at h
  exact ⟨_, _, _, _, _, _, _, _, _, _, _, _, _, _, _, _, _, _, _, rfl⟩

theorem rd32_lt (s : Bytes) (i : Nat) : rd32 s i < 2 ^ 32 := by
  unfold rd32 byteAt
  have h0 := (s.getD i 0).toNat_lt
  have h1 := (s.getD (i+1) 0).toNat_lt
  have h2 := (s.getD (i+2) 0).toNat_lt
  have h3 := (s.getD (i+3) 0).toNat_lt
  omega

/-- When the length field does not wrap, what is popped is a well-formed frame. -/
theorem packet_is_frame (cfg : Cfg) (data sdp : Bytes) (ht : data.take 5 = tag)
    (h23 : 23 ≤ data.length) (hlo : cfg.verMin ≤ byteAt data 5) (hhi : byteAt data 5 ≤ cfg.verMax)
    (hsz : add32 18 (rd32 data 14) ≤ cfg.sdpSize) (hlen : add32 18 (rd32 data 14) + 5 ≤ data.length)
    (hend : (data.drop (add32 18 (rd32 data 14))).take 5 = tag)
    (hnw : rd32 data 14 < 2 ^ 32 - 18) :
    data = frame (readSdp (copyTo sdp data (add32 18 (rd32 data 14)))) ++
        data.drop (add32 18 (rd32 data 14) + 5) ∧
      (readSdp (copyTo sdp data (add32 18 (rd32 data 14)))).Valid cfg := by
  have hadd : add32 18 (rd32 data 14) = 18 + rd32 data 14 := by
    unfold add32 two32; omega
  rw [hadd] at hsz hlen hend ⊢
  clear hadd
  obtain ⟨a0, a1, a2, a3, a4, a5, a6, a7, a8, a9, a10, a11, a12, a13, a14, a15, a16, a17, r, rfl⟩ :=
    split18 data (by omega)
  generalize hn : rd32 (a0 :: a1 :: a2 :: a3 :: a4 :: a5 :: a6 :: a7 :: a8 :: a9 :: a10 :: a11 ::
    a12 :: a13 :: a14 :: a15 :: a16 :: a17 :: r) 14 = n at *
  have hn' : a14.toNat + 256 * a15.toNat + 65536 * a16.toNat + 16777216 * a17.toNat = n := by
    simpa [rd32, byteAt] using hn
  have hr : n + 5 ≤ r.length := by simp at hlen; omega
  have hrd : readSdp (copyTo sdp (a0 :: a1 :: a2 :: a3 :: a4 :: a5 :: a6 :: a7 :: a8 :: a9 :: a10 ::
      a11 :: a12 :: a13 :: a14 :: a15 :: a16 :: a17 :: r) (18 + n)) =
      ⟨a5.toNat, a6.toNat + 256 * a7.toNat + 65536 * a8.toNat + 16777216 * a9.toNat,
        a10.toNat + 256 * a11.toNat + 65536 * a12.toNat + 16777216 * a13.toNat, r.take n⟩ := by
    rw [Nat.add_comm 18 n]
    simp only [readSdp, copyTo, rd32, byteAt, List.take_succ_cons, List.cons_append,
      List.getD_cons_succ, List.getD_cons_zero, List.drop_succ_cons, List.drop_zero, hn']
    rw [List.take_left' (by simp; omega)]
  rw [hrd]
  have hend' : (r.drop n).take 5 = tag := by
    rw [Nat.add_comm 18 n] at hend
    simpa using hend
  have htk : (r.take n).length = n := by simp; omega
  constructor
  · have ht' : [a0, a1, a2, a3, a4] = tag := by simpa using ht
    have : r = r.take n ++ (tag ++ r.drop (n + 5)) := by
      rw [← hend', ← List.drop_drop, List.take_append_drop, List.take_append_drop]
    have h18 : 18 + n + 5 = (n + 5) + 18 := by omega
    rw [h18]
    have h4 : le32 (r.take n).length = [a14, a15, a16, a17] := by
      rw [htk, ← hn', le32_of_bytes]
    simp only [frame, h4, le32_of_bytes, ← ht']
    simp only [List.drop_succ_cons]
    simp only [List.cons_append, List.nil_append, List.append_assoc, UInt8.ofNat_toNat]
    congr 18
    simpa [← ht'] using this
  · have h0 := rd32_lt (a0 :: a1 :: a2 :: a3 :: a4 :: a5 :: a6 :: a7 :: a8 :: a9 :: a10 :: a11 ::
      a12 :: a13 :: a14 :: a15 :: a16 :: a17 :: r)
    refine ⟨by simpa [byteAt] using hlo, by simpa [byteAt] using hhi, ?_, ?_, ?_⟩
    · simpa [rd32, byteAt] using h0 6
    · simpa [rd32, byteAt] using h0 10
    · rw [htk]; unfold Cfg.sdpSize headerSize at hsz; omega

theorem rd32_drop (s : Bytes) (n i : Nat) : rd32 (s.drop n) i = rd32 s (n + i) := by
  simp [rd32, byteAt, List.getD_eq_getElem?_getD, Nat.add_assoc]

theorem NoHugeField.drop {s : Bytes} (h : NoHugeField s) (n : Nat) : NoHugeField (s.drop n) :=
  fun i => by rw [rd32_drop]; exact h _

theorem byteAt_append_le (a b : Bytes) (i : Nat) : byteAt a i ≤ byteAt (a ++ b) i := by
  by_cases h : i < a.length
  · rw [byteAt_append_left h]; exact Nat.le_refl _
  · have : a[i]? = none := by simp; omega
    simp [byteAt, List.getD_eq_getElem?_getD, this]

theorem NoHugeField.prefix {a b : Bytes} (h : NoHugeField (a ++ b)) : NoHugeField a := by
  intro i
  have h0 := h i
  unfold rd32 at *
  have := byteAt_append_le a b i
  have := byteAt_append_le a b (i + 1)
  have := byteAt_append_le a b (i + 2)
  have := byteAt_append_le a b (i + 3)
  omega

/-- The ways a pass of the receive loop can end on arbitrary input. -/
def IterEnd.Clean : IterEnd → Prop
  | .ok | .dataError | .versionError _ => True
  | _ => False

theorem popLoop_safe (cfg : Cfg) (h : cfg.Ok) (oom : Bool) : ∀ (fuel : Nat) (r : Recv), r.Inv cfg →
    r.inb.buf.data.length < fuel → ∀ ps e r', popLoop cfg oom fuel r = (ps, e, r') →
    e.Clean ∧ r'.Inv cfg ∧ (e = .ok → r'.inb.buf.data.length ≤ cfg.maxData + 22) ∧
    (NoHugeField r.inb.buf.data → (∀ p ∈ ps, p.Valid cfg) ∧ ∃ rest,
      r.inb.buf.data = stream ps ++ rest ∧ (e = .ok → r'.inb.buf.data = rest)) := by
  intro fuel
  induction fuel with
  | zero => intro r _ hf; omega
  | succ fuel ih =>
    intro r hr hf ps e r' he
    rcases hpop : popIn cfg oom r.inb r.sdp with ⟨res, b', sdp'⟩
    obtain ⟨hc, hinv⟩ := popIn_spec cfg h oom r hr res b' sdp' hpop
    simp only [popLoop, hpop] at he
    have hsz : cfg.sdpSize = 18 + cfg.maxData := rfl
    generalize hdd : r.inb.buf.data = data at *
    generalize hbd : b'.buf.data = bd at hc
    cases hc
    case packet ht h23 hlo hhi hs hl hend =>
      rcases hrec : popLoop cfg oom fuel ⟨b', copyTo r.sdp data (add32 18 (rd32 data 14))⟩ with ⟨qs, e2, r2⟩
      have hlen : b'.buf.data.length < fuel := by rw [hbd]; simp; omega
      obtain ⟨i1, i2, i3, i4⟩ := ih _ hinv hlen qs e2 r2 hrec
      simp only [hrec, Prod.mk.injEq] at he
      obtain ⟨rfl, rfl, rfl⟩ := he
      refine ⟨i1, i2, i3, ?_⟩
      intro hnh
      obtain ⟨hf1, hf2⟩ := packet_is_frame cfg data r.sdp ht h23 hlo hhi hs hl hend (hnh 14)
      simp only [hbd] at i4
      obtain ⟨hv, rest, hrest, hr2⟩ := i4 (hnh.drop _)
      refine ⟨?_, rest, ?_, hr2⟩
      · intro p hp
        rcases List.mem_cons.mp hp with rfl | hp
        · exact hf2
        · exact hv p hp
      · conv => lhs; rw [hf1, hrest]
        simp [stream]
    all_goals
      simp only [Prod.mk.injEq] at he
      obtain ⟨rfl, rfl, rfl⟩ := he
      refine ⟨trivial, hinv, ?_, fun _ => ⟨by simp, data, by simp [stream], ?_⟩⟩
    all_goals first
      | (intro _; simp only [hbd]; omega)
      | (intro _; simp only [hbd]; done)
      | (intro hx; cases hx)

theorem receive_safe (cfg : Cfg) (h : cfg.Ok) (oom : Bool) (reads : List Read) : ∀ (r : Recv),
    r.Inv cfg → r.inb.buf.data.length ≤ cfg.maxData + 22 →
    (∀ c, some c ∈ reads → c.length ≤ cfg.readMax) →
    ∀ ps e r', receive cfg oom r reads = (ps, e, r') →
    e ≠ .ub ∧ e ≠ .fuel ∧ e ≠ .overflow ∧ (e = .noMem → oom = true) ∧ r'.Inv cfg ∧
    (NoHugeField (r.inb.buf.data ++ received reads) → (∀ p ∈ ps, p.Valid cfg) ∧
      ∃ rest, r.inb.buf.data ++ received reads = stream ps ++ rest ∧
        (e = .ok → r'.inb.buf.data = rest)) := by
  induction reads with
  | nil =>
    intro r hr hl _ ps e r' he
    simp only [receive, Prod.mk.injEq] at he
    obtain ⟨rfl, rfl, rfl⟩ := he
    exact ⟨by simp, by simp, by simp, by simp, hr, fun _ =>
      ⟨by simp, r.inb.buf.data, by simp [received, stream], fun _ => rfl⟩⟩
  | cons c cs ih =>
    intro r hr hl hro ps e r' he
    have hro' : ∀ c, some c ∈ cs → c.length ≤ cfg.readMax := fun c hc => hro c (by simp [hc])
    -- one pass
    have key : ∀ ps1 e1 r1, iterateDevice cfg oom r c = (ps1, e1, r1) →
        e1 ≠ .ub ∧ e1 ≠ .fuel ∧ e1 ≠ .overflow ∧ (e1 = .noMem → oom = true) ∧ r1.Inv cfg ∧
        (e1 = .ok → r1.inb.buf.data.length ≤ cfg.maxData + 22) ∧
        (NoHugeField (r.inb.buf.data ++ received (c :: cs)) → (∀ p ∈ ps1, p.Valid cfg) ∧
          ∃ rest, r.inb.buf.data ++ received (c :: cs) = stream ps1 ++ rest ++ received cs ∧
          (e1 = .ok → r1.inb.buf.data = rest)) := by
      intro ps1 e1 r1 h1
      have fin : ∀ (r0 : Recv) (x : Bytes), r0.Inv cfg → r0.inb.buf.data = r.inb.buf.data ++ x →
          received (c :: cs) = x ++ received cs →
          popLoop cfg oom (r0.inb.buf.data.length + 1) r0 = (ps1, e1, r1) →
          e1 ≠ .ub ∧ e1 ≠ .fuel ∧ e1 ≠ .overflow ∧ (e1 = .noMem → oom = true) ∧ r1.Inv cfg ∧
          (e1 = .ok → r1.inb.buf.data.length ≤ cfg.maxData + 22) ∧
          (NoHugeField (r.inb.buf.data ++ received (c :: cs)) → (∀ p ∈ ps1, p.Valid cfg) ∧
            ∃ rest, r.inb.buf.data ++ received (c :: cs) = stream ps1 ++ rest ++ received cs ∧
            (e1 = .ok → r1.inb.buf.data = rest)) := by
        intro r0 x hi0 hd0 hrec hp
        obtain ⟨j1, j2, j3, j4⟩ := popLoop_safe cfg h oom _ r0 hi0 (by omega) ps1 e1 r1 hp
        refine ⟨?_, ?_, ?_, ?_, j2, j3, ?_⟩
        iterate 4 (cases e1 <;> first | simp_all [IterEnd.Clean]; done | simp)
        intro hn
        rw [hrec, ← List.append_assoc, ← hd0] at hn
        obtain ⟨k1, rest, k2, k3⟩ := j4 hn.prefix
        refine ⟨k1, rest, ?_, k3⟩
        rw [hrec, ← List.append_assoc, ← hd0, k2]
      cases c with
      | none =>
        exact fin r [] hr (by simp) (by simp [received]) (by simpa [iterateDevice] using h1)
      | some c =>
        cases c with
        | nil =>
          simp only [iterateDevice, Prod.mk.injEq] at h1
          obtain ⟨rfl, rfl, rfl⟩ := h1
          exact ⟨by simp, by simp, by simp, by simp, hr, by simp, fun _ =>
            ⟨by simp, r.inb.buf.data, by simp [received, stream], by simp⟩⟩
        | cons x xs =>
          have hc := hro (x :: xs) (by simp)
          have hroom := h.room
          have hmax := h.maxSmall
          rcases append_spec cfg h oom r.inb.buf hr.buf (x :: xs) (by omega) with
            ⟨ha, hov⟩ | ⟨ha, hoom⟩ | ⟨b', ha, hbi, hbd⟩
          · omega
          · simp only [iterateDevice, ha, Prod.mk.injEq] at h1
            obtain ⟨rfl, rfl, rfl⟩ := h1
            exact ⟨by simp, by simp, by simp, fun _ => hoom, hr, by simp, fun _ =>
              ⟨by simp, r.inb.buf.data ++ (x :: xs), by simp [received, stream], by simp⟩⟩
          · have hinv : (Recv.mk ⟨r.inb.beginTag, b'⟩ r.sdp).Inv cfg := by
              refine ⟨hbi, ?_, hr.sdp⟩
              intro hb
              have h5 := hr.tagSeen hb
              simp only [hbd]
              rw [List.take_append_of_le_length (take5_length h5)]
              exact h5
            exact fin _ (x :: xs) hinv hbd (by simp [received]) (by simpa [iterateDevice, ha] using h1)
    rcases h1 : iterateDevice cfg oom r c with ⟨ps1, e1, r1⟩
    obtain ⟨k1, k2, k3, k4, k5, k6, k7⟩ := key ps1 e1 r1 h1
    by_cases hok : e1 = .ok
    · subst hok
      rcases h2 : receive cfg oom r1 cs with ⟨qs, e2, r2⟩
      obtain ⟨m1, m2, m3, m4, m5, m6⟩ := ih r1 k5 (k6 rfl) hro' qs e2 r2 h2
      simp only [receive, h1, h2, Prod.mk.injEq] at he
      obtain ⟨rfl, rfl, rfl⟩ := he
      refine ⟨m1, m2, m3, m4, m5, ?_⟩
      intro hn
      obtain ⟨n1, rest, n2, n3⟩ := k7 hn
      have hn2 : NoHugeField (r1.inb.buf.data ++ received cs) := by
        rw [n2, List.append_assoc] at hn
        have := hn.drop (stream ps1).length
        rw [List.drop_left] at this
        rw [n3 rfl]; exact this
      obtain ⟨o1, rest2, o2, o3⟩ := m6 hn2
      refine ⟨?_, rest2, ?_, o3⟩
      · intro p hp
        rcases List.mem_append.mp hp with hp | hp
        · exact n1 p hp
        · exact o1 p hp
      · rw [n2, List.append_assoc, ← n3 rfl, o2]
        simp [stream]
    · have he' : receive cfg oom r (c :: cs) = (ps1, e1, r1) := by
        simp only [receive, h1]
      rw [he'] at he
      simp only [Prod.mk.injEq] at he
      obtain ⟨rfl, rfl, rfl⟩ := he
      refine ⟨k1, k2, k3, k4, k5, ?_⟩
      intro hn
      obtain ⟨n1, rest, n2, n3⟩ := k7 hn
      exact ⟨n1, rest ++ received cs, by rw [n2]; simp, fun hx => absurd hx hok⟩

end Verif.Proto
