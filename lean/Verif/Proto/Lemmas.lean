import Verif.Proto.Spec

/-! Helper lemmas for the framing claims. -/

namespace Verif.Proto

/-- Invariant of a receive or send buffer. -/
structure Buf.Inv (cfg : Cfg) (b : Buf) : Prop where
  fits : b.data.length ≤ b.size
  bounded : b.size < cfg.bufMax

/-- Invariant of the receiver. -/
structure Recv.Inv (cfg : Cfg) (r : Recv) : Prop where
  buf : r.inb.buf.Inv cfg
  tagSeen : r.inb.beginTag = true → r.inb.buf.data.take 5 = tag
  sdp : r.sdp.length = cfg.sdpSize

theorem init_inv (cfg : Cfg) (h : cfg.Ok) : (Recv.init cfg).Inv cfg := by
  refine ⟨⟨by simp [Recv.init], ?_⟩, by simp [Recv.init], by simp [Recv.init]⟩
  have := h.minMax
  simp [Recv.init]; omega

theorem append_spec (cfg : Cfg) (h : cfg.Ok) (oom : Bool) (b : Buf) (hb : b.Inv cfg) (d : Bytes)
    (hd : d.length < 2 ^ 31) :
    (append cfg oom b d = .overflow ∧ cfg.bufMax ≤ b.data.length + d.length) ∨
    (append cfg oom b d = .noMem ∧ oom = true) ∨
    ∃ b', append cfg oom b d = .ok b' ∧ b'.Inv cfg ∧ b'.data = b.data ++ d := by
  have := hb.fits
  have := hb.bounded
  have := h.minMax
  have := h.maxSmall
  unfold append sub32 add32 two32
  simp only []
  repeat' split
  all_goals first
    | (left; refine ⟨rfl, ?_⟩; omega)
    | (right; left; refine ⟨rfl, ?_⟩; simp_all)
    | (right; right; refine ⟨_, rfl, ⟨?_, ?_⟩, rfl⟩ <;> simp only [List.length_append] <;> omega)
    | (exfalso; omega)

theorem append_fits (cfg : Cfg) (h : cfg.Ok) (b : Buf) (hb : b.Inv cfg) (d : Bytes)
    (hd : b.data.length + d.length < cfg.bufMax) :
    ∃ b', append cfg false b d = .ok b' ∧ b'.Inv cfg ∧ b'.data = b.data ++ d := by
  have := h.maxSmall
  rcases append_spec cfg h false b hb d (by omega) with ⟨_, h1⟩ | ⟨_, h1⟩ | h1
  · omega
  · cases h1
  · exact h1

theorem shrink_spec (cfg : Cfg) (h : cfg.Ok) (oom : Bool) (b : Buf) (hb : b.Inv cfg) (n : Nat) :
    (shrink cfg oom b n).Inv cfg ∧ (shrink cfg oom b n).data = b.data.drop n := by
  have h1 := hb.fits
  have h2 := hb.bounded
  have h3 := h.minMax
  have hdrop : b.data.drop (min n b.data.length) = b.data.drop n := by
    rcases Nat.le_total n b.data.length with hn | hn
    · rw [Nat.min_eq_left hn]
    · rw [Nat.min_eq_right hn, List.drop_eq_nil_of_le (Nat.le_refl _), List.drop_eq_nil_of_le hn]
  unfold shrink
  simp only [hdrop]
  have hl : (b.data.drop n).length ≤ b.data.length := by simp
  repeat' split
  all_goals exact ⟨⟨by simp only []; omega, by simp only []; omega⟩, rfl⟩

theorem tag_length : tag.length = 5 := rfl

/-- `popIn` on a state satisfying the invariant, without the `begin_tag` bookkeeping. -/
inductive PopCase (cfg : Cfg) (data : Bytes) (sdp : Bytes) : PopRes → Bytes → Bytes → Prop
  | short : data.length < 5 → PopCase cfg data sdp .none data sdp
  | badTag : 5 ≤ data.length → data.take 5 ≠ tag → PopCase cfg data sdp .dataError [] sdp
  | noHeader : data.take 5 = tag → 5 ≤ data.length → data.length < 23 → PopCase cfg data sdp .none data sdp
  | badVersion : data.take 5 = tag → 23 ≤ data.length →
      (byteAt data 5 > cfg.verMax ∨ byteAt data 5 < cfg.verMin) →
      PopCase cfg data sdp (.versionError (byteAt data 5)) [] (sdp.set 5 (data.getD 5 0))
  | tooLong : data.take 5 = tag → 23 ≤ data.length → cfg.verMin ≤ byteAt data 5 →
      byteAt data 5 ≤ cfg.verMax → add32 18 (rd32 data 14) > cfg.sdpSize →
      PopCase cfg data sdp .dataError [] sdp
  | incomplete : data.take 5 = tag → 23 ≤ data.length → cfg.verMin ≤ byteAt data 5 →
      byteAt data 5 ≤ cfg.verMax → add32 18 (rd32 data 14) ≤ cfg.sdpSize →
      data.length < add32 18 (rd32 data 14) + 5 → PopCase cfg data sdp .none data sdp
  | badEnd : data.take 5 = tag → 23 ≤ data.length → cfg.verMin ≤ byteAt data 5 →
      byteAt data 5 ≤ cfg.verMax → add32 18 (rd32 data 14) ≤ cfg.sdpSize →
      add32 18 (rd32 data 14) + 5 ≤ data.length →
      (data.drop (add32 18 (rd32 data 14))).take 5 ≠ tag → PopCase cfg data sdp .dataError [] sdp
  | packet : data.take 5 = tag → 23 ≤ data.length → cfg.verMin ≤ byteAt data 5 →
      byteAt data 5 ≤ cfg.verMax → add32 18 (rd32 data 14) ≤ cfg.sdpSize →
      add32 18 (rd32 data 14) + 5 ≤ data.length →
      (data.drop (add32 18 (rd32 data 14))).take 5 = tag →
      PopCase cfg data sdp .packet (data.drop (add32 18 (rd32 data 14) + 5))
        (copyTo sdp data (add32 18 (rd32 data 14)))

theorem take5_length {l : Bytes} (h : l.take 5 = tag) : 5 ≤ l.length := by
  have := congrArg List.length h
  simp [tag] at this
  omega

theorem copyTo_length (sdp src : Bytes) (n : Nat) (h1 : n ≤ src.length) (h2 : n ≤ sdp.length) :
    (copyTo sdp src n).length = sdp.length := by
  simp [copyTo]; omega

theorem popIn_spec (cfg : Cfg) (h : cfg.Ok) (oom : Bool) (r : Recv) (hr : r.Inv cfg)
    (res : PopRes) (b' : InBuf) (sdp' : Bytes) (he : popIn cfg oom r.inb r.sdp = (res, b', sdp')) :
    PopCase cfg r.inb.buf.data r.sdp res b'.buf.data sdp' ∧ (Recv.mk b' sdp').Inv cfg := by
  have hfit := hr.buf.fits
  have hbd := hr.buf.bounded
  have hmax := h.maxSmall
  have hroom := h.room
  have hsdp := hr.sdp
  have htag := hr.tagSeen
  have hshr : ∀ n, (shrinkIn cfg oom ⟨true, r.inb.buf⟩ n).buf.Inv cfg ∧
      (shrinkIn cfg oom ⟨true, r.inb.buf⟩ n).buf.data = r.inb.buf.data.drop n :=
    fun n => shrink_spec cfg h oom r.inb.buf hr.buf n
  have hall : r.inb.buf.data.drop r.inb.buf.data.length = [] := by simp
  have hinvS : ∀ n s, s.length = cfg.sdpSize → (Recv.mk (shrinkIn cfg oom ⟨true, r.inb.buf⟩ n) s).Inv cfg := by
    intro n s hs
    exact ⟨(hshr n).1, by simp [shrinkIn], hs⟩
  have hsz : cfg.sdpSize = 18 + cfg.maxData := rfl
  have hshr' : ∀ bt n, shrinkIn cfg oom ⟨bt, r.inb.buf⟩ n = shrinkIn cfg oom ⟨true, r.inb.buf⟩ n := fun _ _ => rfl
  have hshr'' : ∀ n, shrinkIn cfg oom r.inb n = shrinkIn cfg oom ⟨true, r.inb.buf⟩ n := fun _ => rfl
  unfold popIn at he
  simp only [] at he
  generalize hD : r.inb.buf.data = data at *
  generalize hbt : r.inb.beginTag = bt at *
  by_cases h5 : data.length < 5
  · -- too short: nothing
    have hb : bt = false := by
      cases bt
      · rfl
      · have := take5_length (htag rfl); omega
    subst hb
    have : ¬ (data.length ≥ 5) := by omega
    simp [this] at he
    obtain ⟨rfl, rfl, rfl⟩ := he
    refine ⟨?_, ⟨hr.buf, by simp, hsdp⟩⟩
    simp only [hD]
    exact PopCase.short h5
  · have h5' : 5 ≤ data.length := by omega
    by_cases ht : data.take 5 = tag
    · -- tag present
      have hb1 : (if bt = false ∧ data.length ≥ 5 then true else bt) = true := by
        cases bt <;> simp [h5']
      rw [hb1] at he
      have hsub : sub32 data.length 5 = data.length - 5 := by unfold sub32 two32; omega
      rw [hsub] at he
      simp only [ht, ne_eq, not_true_eq_false, and_false, if_false, headerSize] at he
      by_cases h23 : data.length < 23
      · have : ¬ (data.length - 5 ≥ 18) := by omega
        simp only [this, and_false, if_false, Prod.mk.injEq] at he
        obtain ⟨rfl, rfl, rfl⟩ := he
        refine ⟨?_, ⟨hr.buf, fun _ => by simpa [hD] using ht, hsdp⟩⟩
        simp only [hD]
        exact PopCase.noHeader ht h5' h23
      · have h23' : 23 ≤ data.length := by omega
        have e1 : (True ∧ data.length - 5 ≥ 18) = True := by simp; omega
        have e2 : ¬ (data.length < 18) := by omega
        simp only [e1, e2, if_true, if_false] at he
        by_cases hv : byteAt data 5 > cfg.verMax ∨ byteAt data 5 < cfg.verMin
        · simp only [hv, if_true, Prod.mk.injEq] at he
          obtain ⟨rfl, rfl, rfl⟩ := he
          refine ⟨?_, hinvS _ _ (by simpa using hsdp)⟩
          rw [(hshr _).2, hall]
          exact PopCase.badVersion ht h23' hv
        · simp only [hv, if_false] at he
          have hv1 : cfg.verMin ≤ byteAt data 5 := by omega
          have hv2 : byteAt data 5 ≤ cfg.verMax := by omega
          by_cases hl : add32 18 (rd32 data 14) > cfg.sdpSize
          · simp only [hl, if_true, Prod.mk.injEq] at he
            obtain ⟨rfl, rfl, rfl⟩ := he
            refine ⟨?_, hinvS _ _ hsdp⟩
            rw [(hshr _).2, hall]
            exact PopCase.tooLong ht h23' hv1 hv2 hl
          · simp only [hl, if_false] at he
            have hl' : add32 18 (rd32 data 14) ≤ cfg.sdpSize := by omega
            have hadd : add32 (add32 18 (rd32 data 14)) 5 = add32 18 (rd32 data 14) + 5 := by
              clear he
              generalize add32 18 (rd32 data 14) = t at hl'
              unfold add32 two32; omega
            simp only [hadd] at he
            by_cases hi : add32 18 (rd32 data 14) + 5 > data.length
            · simp only [hi, if_true, Prod.mk.injEq] at he
              obtain ⟨rfl, rfl, rfl⟩ := he
              refine ⟨?_, ⟨hr.buf, fun _ => by simpa [hD] using ht, hsdp⟩⟩
              simp only [hD]
              exact PopCase.incomplete ht h23' hv1 hv2 hl' hi
            · have hi' : add32 18 (rd32 data 14) + 5 ≤ data.length := by omega
              have e3 : ¬ (add32 18 (rd32 data 14) ≥ r.inb.buf.size) := by omega
              simp only [hi, e3, if_false] at he
              by_cases hend : (data.drop (add32 18 (rd32 data 14))).take 5 = tag
              · have e4 : ¬ (add32 18 (rd32 data 14) > r.sdp.length) := by omega
                simp only [hend, ne_eq, not_true_eq_false, e4, if_false, Prod.mk.injEq] at he
                obtain ⟨rfl, rfl, rfl⟩ := he
                refine ⟨?_, hinvS _ _ ?_⟩
                · rw [(hshr _).2]
                  exact PopCase.packet ht h23' hv1 hv2 hl' hi' hend
                · rw [copyTo_length _ _ _ (by omega) (by omega)]; exact hsdp
              · simp only [ne_eq, hend, not_false_eq_true, if_true, Prod.mk.injEq] at he
                obtain ⟨rfl, rfl, rfl⟩ := he
                refine ⟨?_, hinvS _ _ hsdp⟩
                rw [(hshr _).2, hall]
                exact PopCase.badEnd ht h23' hv1 hv2 hl' hi' hend
    · -- wrong tag
      have hb : bt = false := by
        cases bt
        · rfl
        · exact absurd (htag rfl) ht
      subst hb
      have : data.length ≥ 5 := h5'
      simp [this, ht] at he
      obtain ⟨rfl, rfl, rfl⟩ := he
      rw [hshr'']
      refine ⟨?_, hinvS _ _ hsdp⟩
      rw [(hshr _).2, hall]
      exact PopCase.badTag h5' ht

end Verif.Proto
