import Verif.DevCfg.Props

/-!
# C57: the values of the device configuration

What the device reports of a field is `fill`; what a message does to it is `apply`.
-/

namespace Verif.DevCfg

/-! ## Specification -/

/-- The documented contents of a field (P 2749-2814). -/
def Valid (avail : Nat) (b : List Nat) : F → Prop
  | .led => ∃ x, b = [x] ∧ x ≤ 2
  | .power => ∃ x, b = [x] ∧ x ≤ 1
  | .bright => ∃ a < 256, -100 ≤ s8 (a : Nat) ∧ s8 (a : Nat) ≤ 100 ∧ (b = [0, 1, a] ∨ ∃ v ≤ 100, b = [v, 0, a])
  | .volume => ∃ x, b = [x] ∧ x ≤ 100
  | .ui => ∃ x ≤ 2, ∃ l < 32768, ∃ h < 32768, b = x :: (bytes 2 l ++ bytes 2 h)
  | .sync => ∃ x, b = [x] ∧ x ≤ 1
  | .delay => ∃ x < 65536, b = bytes 2 x
  | .content => ∃ k ≤ 7, avail.testBit k = true ∧ b = bytes 8 avail ++ bytes 8 (2 ^ k)
  | .delayType => ∃ x, b = [x] ∧ x ≤ 1

/-- The device can take the field: it has a status LED (power LED) setting of its own, and a volume. -/
def Settable (c : Cfg) : F → Prop
  | .led => ∃ v, c.led = some v ∧ 0 ≤ v ∧ v ≤ 2
  | .power => ∃ v, c.power = some v ∧ 0 ≤ v ∧ v ≤ 1
  | .volume => c.volume ≠ none
  | _ => True

/-- The full claim: what the server sets is what the device reports. -/
def SetGet : Prop := ∀ avail f b c, Valid avail b f → fill avail f (apply avail f b c) = b

/-- A stored configuration within the documented ranges. -/
structure Sane (avail : Nat) (c : Cfg) : Prop where
  adjust : -100 ≤ c.adjust.getD 0 ∧ c.adjust.getD 0 ≤ 100
  volume : ∃ v, c.volume = some v ∧ 0 ≤ v ∧ v ≤ 100
  ui : 0 ≤ c.ui.getD 0 ∧ c.ui.getD 0 ≤ 2
  minT : 0 ≤ c.minT.getD 0 ∧ c.minT.getD 0 ≤ 32767
  maxT : 0 ≤ c.maxT.getD 0 ∧ c.maxT.getD 0 ≤ 32767
  sync : 0 ≤ c.sync.getD 1 ∧ c.sync.getD 1 ≤ 1
  delay : 0 ≤ c.delay.getD 0 ∧ c.delay.getD 0 ≤ 65535
  content : 0 ≤ c.content.getD 0 ∧ c.content.getD 0 ≤ 7

/-! ## Bytes -/

theorem le_bytes (n x : Nat) : le (bytes n x) = x % 256 ^ n := by
  induction n generalizing x with
  | zero => simp [bytes, le, Nat.mod_one]
  | succ n ih =>
    rw [bytes, le, ih, Nat.pow_succ, Nat.mul_comm (256 ^ n) 256, Nat.mod_mul]

theorem bytes_length (n x : Nat) : (bytes n x).length = n := by
  induction n generalizing x with
  | zero => rfl
  | succ n ih => rw [bytes, List.length_cons, ih]

theorem content_read (avail x : Nat) (hx : x < 2 ^ 64) :
    le (((bytes 8 avail ++ bytes 8 x).drop 8).take 8) = x := by
  rw [List.drop_left' (bytes_length 8 avail), List.take_of_length_le (by rw [bytes_length]; omega), le_bytes,
    Nat.mod_eq_of_lt (by simpa using hx)]

theorem u16_bytes (x : Nat) (hx : x < 65536) (pre post : List Nat) (i : Nat) (hi : pre.length = i) :
    u16 (pre ++ (bytes 2 x ++ post)) i = x := by
  subst hi
  simp only [u16, u8, bytes, List.getD_eq_getElem?_getD, List.cons_append, List.nil_append]
  rw [List.getElem?_append_right (by omega), List.getElem?_append_right (by omega)]
  simp only [Nat.sub_self, show pre.length + 1 - pre.length = 1 by omega]
  simp
  omega

theorem bit_and {avail k : Nat} (h : avail.testBit k = true) : 2 ^ k &&& avail ≠ 0 := by
  intro h0
  have h1 : (2 ^ k &&& avail).testBit k = true := by
    rw [Nat.testBit_and, Nat.testBit_two_pow_self, h]
    rfl
  rw [h0, Nat.zero_testBit] at h1
  cases h1

theorem enum_bit {k : Nat} (h : k ≤ 7) : bitToEnum (2 ^ k) = k := by
  have : k = 0 ∨ k = 1 ∨ k = 2 ∨ k = 3 ∨ k = 4 ∨ k = 5 ∨ k = 6 ∨ k = 7 := by omega
  rcases this with h | h | h | h | h | h | h | h <;> subst h <;> rfl

theorem w8_nat {x : Nat} (h : x < 256) : w8 (x : Nat) = x := by
  unfold w8
  omega

theorem w16_nat {x : Nat} (h : x < 65536) : w16 (x : Nat) = x := by
  unfold w16
  omega

theorem w8_s8 {a : Nat} (h : a < 256) : w8 (s8 (a : Nat)) = a := by
  unfold w8 s8
  omega

theorem put_getD (old new : Int) (key : Option Int) (d : Int) (h : new = old → key.getD d = new) :
    (put old new key).getD d = new := by
  unfold put
  split
  · rfl
  · rename_i hn
    exact h (by simpa using hn)

theorem clamp_id {lo hi x : Int} (h1 : lo ≤ x) (h2 : x ≤ hi) : clamp lo hi x = x := by
  unfold clamp
  rw [if_neg (by omega), if_neg (by omega)]

theorem within_id {lo hi d x : Int} (h1 : lo ≤ x) (h2 : x ≤ hi) : within lo hi d x = x := by
  unfold within
  rw [if_neg (by omega)]

/-- Clamping what `put` left: the new value. -/
theorem clamp_put {lo hi new d d' : Int} {key : Option Int} (h1 : lo ≤ new) (h2 : new ≤ hi)
    (hd : key = none → d' = d) :
    clamp lo hi ((put (clamp lo hi (key.getD d)) new key).getD d') = new := by
  unfold put
  split
  · exact clamp_id h1 h2
  · rename_i hn
    have hn : new = clamp lo hi (key.getD d) := by simpa using hn
    cases key with
    | none =>
      rw [show d' = d from hd rfl]
      exact hn.symm
    | some v => exact hn.symm

theorem within_put {lo hi dv new d : Int} {key : Option Int} (h1 : lo ≤ new) (h2 : new ≤ hi) :
    within lo hi dv ((put (within lo hi dv (key.getD d)) new key).getD d) = new := by
  unfold put
  split
  · exact within_id h1 h2
  · rename_i hn
    have hn : new = within lo hi dv (key.getD d) := by simpa using hn
    exact hn.symm

theorem plain_put {new d : Int} {key : Option Int} : (put (key.getD d) new key).getD d = new :=
  put_getD _ _ _ _ (fun h => h.symm)

/-! ## Set, then get -/

theorem set_get_partial {avail : Nat} {f : F} {b : List Nat} {c : Cfg} (hv : Valid avail b f)
    (hs : Settable c f) : fill avail f (apply avail f b c) = b := by
  cases f
  case led =>
    obtain ⟨x, rfl, hx⟩ := hv
    obtain ⟨v, hc, h0, h2⟩ := hs
    have hu : u8 [x] 0 = x := rfl
    simp only [apply, hc, Option.getD_some, hu]
    have h8 : s8 (x : Nat) = x := by unfold s8; omega
    split
    · simp only [fill, Option.getD_some, h8]
      rw [within_id (by omega) (by omega), w8_nat (by omega)]
    · have : v = x := by omega
      subst this
      simp only [fill, hc, Option.getD_some]
      rw [within_id (by omega) (by omega), w8_nat (by omega)]
  case power =>
    obtain ⟨x, rfl, hx⟩ := hv
    obtain ⟨v, hc, h0, h2⟩ := hs
    have hu : u8 [x] 0 = x := rfl
    simp only [apply, hc, Option.getD_some, hu]
    have h8 : s8 (x : Nat) = x := by unfold s8; omega
    split
    · simp only [fill, Option.getD_some, h8]
      rw [within_id (by omega) (by omega), w8_nat (by omega)]
    · have : v = x := by omega
      subst this
      simp only [fill, hc, Option.getD_some]
      rw [within_id (by omega) (by omega), w8_nat (by omega)]
  case bright =>
    obtain ⟨a, ha, h1, h2, hb⟩ := hv
    have hadj : clamp (-100) 100 ((put (c.adjust.getD 0) (clamp (-100) 100 (s8 (a : Nat))) c.adjust).getD 0) =
        s8 (a : Nat) := by
      rw [plain_put, clamp_id h1 h2, clamp_id h1 h2]
    rcases hb with hb | ⟨v, hv, hb⟩
    · subst hb
      have hu2 : u8 [0, 1, a] 2 = (a : Nat) := rfl
      have hn : newBright [0, 1, a] = -1 := by
        unfold newBright
        rw [if_pos (show u8 [0, 1, a] 1 = 1 from rfl), within_id (by omega) (by omega)]
      simp only [apply, fill, hu2, hn]
      rw [hadj, w8_s8 ha]
      split
      · rfl
      · rename_i hne
        exfalso
        apply hne
        unfold put
        split
        · left; decide
        · rename_i hq
          have hq : -1 = within 0 100 (-1) (c.bright.getD (-1)) := by simpa using hq
          unfold within at hq
          split at hq <;> omega
    · subst hb
      have hu0 : u8 [v, 0, a] 0 = (v : Nat) := rfl
      have hu1 : u8 [v, 0, a] 1 = 0 := rfl
      have hu2 : u8 [v, 0, a] 2 = (a : Nat) := rfl
      have hn : newBright [v, 0, a] = v := by
        unfold newBright
        rw [hu1, if_neg (by decide), hu0, within_id (by omega) (by omega)]
      simp only [apply, fill, hu2, hn]
      rw [hadj, w8_s8 ha]
      have hput : (put (within 0 100 (-1) (c.bright.getD (-1))) (v : Nat) c.bright).getD (-1) = (v : Nat) := by
        apply put_getD
        intro h
        unfold within at h
        split at h <;> omega
      rw [hput, if_neg (by omega), w8_nat (by omega)]
  case volume =>
    obtain ⟨x, rfl, hx⟩ := hv
    have hu : u8 [x] 0 = x := rfl
    simp only [apply, fill, hu]
    rw [clamp_id (x := (x : Nat)) (by omega) (by omega), clamp_put (by omega) (by omega) (fun h => absurd h hs),
      w8_nat (by omega)]
  case ui =>
    obtain ⟨x, hx, l, hl, h, hh, rfl⟩ := hv
    have h0 : u8 (x :: (bytes 2 l ++ bytes 2 h)) 0 = x := rfl
    have h1 : u16 (x :: (bytes 2 l ++ bytes 2 h)) 1 = l := u16_bytes l (by omega) [x] (bytes 2 h) 1 rfl
    have h3 : u16 (x :: (bytes 2 l ++ bytes 2 h)) 3 = h := by
      have := u16_bytes h (by omega) (x :: bytes 2 l) [] 3 (by rw [List.length_cons, bytes_length])
      rw [List.append_nil] at this
      exact this
    simp only [apply, fill, h0, h1, h3]
    rw [if_pos (by omega), plain_put, plain_put, plain_put, clamp_id (by omega) (by omega),
      clamp_id (by omega) (by omega), clamp_id (by omega) (by omega), w8_nat (by omega), w16_nat (by omega),
      w16_nat (by omega)]
  case sync =>
    obtain ⟨x, rfl, hx⟩ := hv
    have hu : u8 [x] 0 = x := rfl
    simp only [apply, hu]
    rw [if_pos (by omega)]
    simp only [fill]
    rw [plain_put, clamp_id (by omega) (by omega), w8_nat (by omega)]
  case delay =>
    obtain ⟨x, hx, rfl⟩ := hv
    have hu : u16 (bytes 2 x) 0 = x := by
      have := u16_bytes x hx [] [] 0 rfl
      rw [List.append_nil, List.nil_append] at this
      exact this
    simp only [apply, fill, hu]
    rw [clamp_put (by omega) (by omega) (fun _ => rfl), w16_nat hx]
  case content =>
    obtain ⟨k, hk, ha, rfl⟩ := hv
    have hlt : 2 ^ k < 2 ^ 64 := Nat.pow_lt_pow_right (by omega) (by omega)
    simp only [apply, content_read avail _ hlt]
    rw [if_neg (bit_and ha)]
    simp only [fill, enum_bit hk]
    congr 2
    unfold intToBit put
    split
    · simp only [Option.getD_some]
      rw [if_neg (by omega)]
      simp
    · rename_i hn
      have hn : (k : Int) = within 0 63 0 (c.content.getD 0) := by simpa using hn
      unfold within at hn
      split at hn
      · rename_i hout
        rw [if_pos hout, show k = 0 by omega]
      · rename_i hin
        rw [if_neg hin, ← hn]
        simp
  case delayType =>
    obtain ⟨x, rfl, hx⟩ := hv
    have hu : u8 [x] 0 = x := rfl
    simp only [apply, fill, hu]
    rw [within_put (by omega) (by omega), w8_nat (by omega)]

/-- C57 fails: a device without a stored volume ignores "100 %" and reports 0 %. -/
theorem volume_default_violation : ¬ SetGet := by
  intro h
  have := h 0 .volume [100] {} ⟨100, rfl, by decide⟩
  revert this
  decide

/-! ## Get, then set -/

theorem put_same {old new : Int} {key : Option Int} (h : new = old) : put old new key = key := if_neg (by simp [h])

theorem u8_w8 (x : Int) (h1 : 0 ≤ x) (h2 : x < 256) (r : List Nat) : u8 (w8 x :: r) 0 = x := by
  show ((w8 x : Nat) : Int) = x
  unfold w8
  omega

theorem get_set_partial {avail : Nat} (f : F) {c : Cfg} (hs : Sane avail c) :
    part f (apply avail f (fill avail f c) c) = part f c := by
  cases f
  case led =>
    simp only [apply, fill]
    generalize hv : c.led.getD (-1) = v
    refine congrArg _ (if_neg ?_)
    rintro ⟨h1, h2, h3⟩
    have : c.led.getD 0 = v := by
      cases hc : c.led with
      | none => rw [hc] at hv; simp at hv; omega
      | some w => rw [hc] at hv; exact hv
    rw [this, within_id h1 h2, u8_w8 _ h1 (by omega)] at h3
    exact h3 rfl
  case power =>
    simp only [apply, fill]
    generalize hv : c.power.getD (-1) = v
    refine congrArg _ (if_neg ?_)
    rintro ⟨h1, h2, h3⟩
    have : c.power.getD 0 = v := by
      cases hc : c.power with
      | none => rw [hc] at hv; simp at hv; omega
      | some w => rw [hc] at hv; exact hv
    rw [this, within_id h1 h2, u8_w8 _ h1 (by omega)] at h3
    exact h3 rfl
  case bright =>
    have hadj := hs.adjust
    have ha : s8 ((w8 (clamp (-100) 100 (c.adjust.getD 0)) : Nat) : Int) = c.adjust.getD 0 := by
      rw [clamp_id hadj.1 hadj.2]
      unfold s8 w8
      omega
    simp only [fill]
    split
    · rename_i hv
      simp only [apply, part]
      rw [show u8 [0, 1, w8 (clamp (-100) 100 (c.adjust.getD 0))] 2 =
        ((w8 (clamp (-100) 100 (c.adjust.getD 0)) : Nat) : Int) from rfl, ha, clamp_id hadj.1 hadj.2, put_same rfl]
      rw [put_same]
      unfold newBright
      generalize w8 (c.adjust.getD 0) = a
      rw [if_pos (show u8 [0, 1, a] 1 = 1 from rfl), within_id (by omega) (by omega)]
      unfold within
      split <;> omega
    · rename_i hv
      simp only [apply, part]
      rw [show u8 [w8 (c.bright.getD (-1)), 0, w8 (clamp (-100) 100 (c.adjust.getD 0))] 2 =
        ((w8 (clamp (-100) 100 (c.adjust.getD 0)) : Nat) : Int) from rfl, ha, clamp_id hadj.1 hadj.2, put_same rfl]
      rw [put_same]
      unfold newBright
      generalize w8 (c.adjust.getD 0) = a
      rw [if_neg (show ¬ u8 [w8 (c.bright.getD (-1)), 0, a] 1 = 1 by show ¬ ((0 : Nat) : Int) = 1; decide), u8_w8 _ (by omega) (by omega), within_id (by omega) (by omega),
        within_id (by omega) (by omega)]
  case volume =>
    obtain ⟨v, hv, h1, h2⟩ := hs.volume
    simp only [apply, fill, part, hv, Option.getD_some]
    rw [put_same]
    rw [clamp_id h1 h2, u8_w8 _ (by omega) (by omega), clamp_id h1 h2]
  case ui =>
    have h1 := hs.ui
    have h2 := hs.minT
    have h3 := hs.maxT
    simp only [fill]
    rw [clamp_id h1.1 h1.2, clamp_id (by omega) h2.2, clamp_id (by omega) h3.2]
    have hl : w16 (c.minT.getD 0) < 65536 := by unfold w16; omega
    have hh : w16 (c.maxT.getD 0) < 65536 := by unfold w16; omega
    have e1 := u16_bytes (w16 (c.minT.getD 0)) hl [w8 (c.ui.getD 0)] (bytes 2 (w16 (c.maxT.getD 0))) 1 rfl
    have e2 := u16_bytes (w16 (c.maxT.getD 0)) hh (w8 (c.ui.getD 0) :: bytes 2 (w16 (c.minT.getD 0))) [] 3
      (by rw [List.length_cons, bytes_length])
    rw [List.append_nil] at e2
    simp only [List.cons_append, List.nil_append] at e1 e2
    simp only [apply, part]
    rw [u8_w8 _ h1.1 (by omega), e1, e2, if_pos h1.2, put_same rfl, put_same (by unfold w16; omega),
      put_same (by unfold w16; omega)]
  case sync =>
    have h := hs.sync
    have hf : fill avail .sync c = [w8 (c.sync.getD 1)] := by
      simp only [fill]
      rw [clamp_id h.1 h.2]
    have hu : u8 [w8 (c.sync.getD 1)] 0 = c.sync.getD 1 := u8_w8 _ h.1 (by omega) []
    rw [hf]
    simp only [apply, hu]
    rw [if_pos h.2]
    simp only [part]
    rw [put_same rfl]
  case delay =>
    have h := hs.delay
    simp only [fill, apply, part]
    rw [clamp_id h.1 h.2]
    have hl : w16 (c.delay.getD 0) < 65536 := by unfold w16; omega
    have e := u16_bytes (w16 (c.delay.getD 0)) hl [] [] 0 rfl
    rw [List.append_nil, List.nil_append] at e
    rw [e, put_same (by unfold w16; omega)]
  case content =>
    have h := hs.content
    obtain ⟨k, hk⟩ : ∃ k : Nat, c.content.getD 0 = k := ⟨_, (Int.toNat_of_nonneg h.1).symm⟩
    have hf : fill avail .content c = bytes 8 avail ++ bytes 8 (2 ^ k) := by
      simp only [fill, hk]
      unfold intToBit
      rw [if_neg (by omega)]
      simp
    have hlt : 2 ^ k < 2 ^ 64 := Nat.pow_lt_pow_right (by omega) (by omega)
    rw [hf]
    simp only [apply, content_read avail _ hlt, hk]
    rw [enum_bit (by omega), within_id (by omega) (by omega), put_same rfl]
    by_cases hz : 2 ^ k &&& avail = 0
    · rw [if_pos hz]
    · rw [if_neg hz]
  case delayType =>
    simp only [fill, apply, part]
    rw [put_same]
    have hw : 0 ≤ within 0 1 0 (c.delayType.getD 0) ∧ within 0 1 0 (c.delayType.getD 0) ≤ 1 := by
      unfold within
      split <;> omega
    rw [u8_w8 _ hw.1 (by omega)]

theorem fill_part {avail : Nat} {f : F} {c c' : Cfg} (h : part f c = part f c') :
    fill avail f c = fill avail f c' := by
  cases f <;> simp only [part, List.cons.injEq, and_true] at h <;> simp only [fill, h]

theorem fill_length (avail : Nat) (f : F) (c : Cfg) : (fill avail f c).length = f.size := by
  cases f <;> simp only [fill, F.size]
  case bright => split <;> rfl
  all_goals simp [bytes_length]

/-- **C57, a setting takes effect (partial: not the power LED together with the delay type, and for the
LEDs and the volume only when the device has such a setting).** After a consistent message of documented
values the device reports for each field of the message the bytes of the message, and the rest of its
configuration is as before. -/
theorem settings_reported_partial {d : Dev} {ready : Bool} {m : Msg} {o : Inst} {c : Cfg} (hr : Received m)
    (hc : Consistent m) (ho : o.code = 255) (hbug : ¬ (m.has .delayType ∧ m.has .power))
    (hv : ∀ f, m.has f → Valid d.avail (m.bytes f) f) (hs : ∀ f, m.has f → Settable c f) :
    ∃ o' c', process d false ready m o c = some (o', c') ∧
      ∀ f, (m.has f → fill d.avail f c' = m.bytes f) ∧ (¬ m.has f → part f c' = part f c) := by
  obtain ⟨o', c', h1, h2⟩ := taken_partial (d := d) (ready := ready) (c := c) hr hc ho hbug
  refine ⟨o', c', h1, fun f => ⟨fun hf => ?_, (h2 f).2⟩⟩
  rw [fill_part ((h2 f).1 hf)]
  exact set_get_partial (hv f hf) (hs f hf)

/-- Two settings at once: the volume and the delay of the home screen. -/
example : (process ⟨0x24, 0⟩ false false (mk 0x24 [40, 30, 0]) {} { volume := some 3 }) =
    some ({ endFlag := true, code := 1 }, { volume := some 40, delay := some 30 }) := by decide +kernel

/-! ## Values outside the documented ones -/

theorem apply_led_out {avail : Nat} {b : List Nat} {c : Cfg} {v : Int} (hc : c.led = some v)
    (hv : v < 0 ∨ 2 < v) (f : F) : (apply avail f b c).led = some v := by
  cases f
  case led =>
    simp only [apply, hc, Option.getD_some]
    rw [if_neg (by omega)]
    exact hc
  all_goals
    simp only [apply]
    first
      | exact hc
      | (split <;> exact hc)

theorem parse_led_out {avail : Nat} {m : Msg} {v : Int} (hv : v < 0 ∨ 2 < v) :
    ∀ {n i idx : Nat} {c c' : Cfg} {r}, c.led = some v → parse avail m n i idx c = some (r, c') →
      c'.led = some v := by
  intro n
  induction n with
  | zero =>
    intro i idx c c' r hc h
    simp only [parse, Option.some.injEq, Prod.mk.injEq] at h
    rw [← h.2]
    exact hc
  | succ n ih =>
    intro i idx c c' r hc h
    rw [parse] at h
    split at h
    · have ht : ∀ idx' c1, turn avail m i idx c = .go idx' c1 → c1.led = some v := by
        intro idx' c1 ht
        unfold turn at ht
        split at ht
        · split at ht
          · cases ht
          · split at ht
            · cases ht
            · split at ht
              · cases ht
              · injection ht with _ ht
                rw [← ht]
                exact apply_led_out hc hv _
        · injection ht with _ ht
          rw [← ht]
          exact hc
      split at h
      · cases h
      · simp only [Option.some.injEq, Prod.mk.injEq] at h
        rw [← h.2]
        exact hc
      · rename_i idx' c1 hgo
        split at h
        · simp only [Option.some.injEq, Prod.mk.injEq] at h
          rw [← h.2]
          exact ht _ _ hgo
        · exact ih (ht _ _ hgo) h
    · simp only [Option.some.injEq, Prod.mk.injEq] at h
      rw [← h.2]
      exact hc

theorem process_led_out {d : Dev} {flag ready : Bool} {m : Msg} {o o' : Inst} {c c' : Cfg} {v : Int}
    (hv : v < 0 ∨ 2 < v) (hc : c.led = some v) (h : process d flag ready m o c = some (o', c')) :
    c'.led = some v := by
  unfold process at h
  generalize enter d flag ready m o = e at h
  obtain ⟨go, o1⟩ := e
  dsimp only at h
  split at h
  · split at h
    · simp only [Option.some.injEq, Prod.mk.injEq] at h
      rw [← h.2]
      exact hc
    · split at h
      · simp only [Option.some.injEq, Prod.mk.injEq] at h
        rw [← h.2]
        exact hc
      · split at h
        · cases h
        · rename_i hp
          simp only [Option.some.injEq, Prod.mk.injEq] at h
          rw [← h.2]
          exact parse_led_out hv hc hp
        · rename_i hp
          simp only [Option.some.injEq, Prod.mk.injEq] at h
          rw [← h.2]
          exact parse_led_out hv hc hp
  · simp only [Option.some.injEq, Prod.mk.injEq] at h
    rw [← h.2]
    exact hc

/-- The configuration after messages, each handled by a fresh object. -/
def messages (d : Dev) : List Msg → Cfg → Option Cfg
  | [], c => some c
  | m :: ms, c => (process d false false m {} c).bind fun r => messages d ms r.2

theorem messages_led_out {d : Dev} {v : Int} (hv : v < 0 ∨ 2 < v) {c'' : Cfg} :
    ∀ (ms : List Msg) (c : Cfg), c.led = some v → messages d ms c = some c'' → c''.led = some v := by
  intro ms
  induction ms with
  | nil =>
    intro c hc h
    simp only [messages, Option.some.injEq] at h
    rw [← h]
    exact hc
  | cons m ms ih =>
    intro c hc h
    rw [messages] at h
    cases hp : process d false false m {} c with
    | none => rw [hp] at h; cases h
    | some r =>
      rw [hp] at h
      obtain ⟨o', c'⟩ := r
      exact ih c' (process_led_out hv hc hp) h

/-- The claim: every setting can be changed back. -/
def Changeable : Prop := ∀ d m c c', Received m → messages d [m] c = some c' →
  ∃ ms c'', messages d ms c' = some c'' ∧ c''.led = c.led

/-- C57 fails: a status LED type outside 0 … 2 is stored, and after that no message of the server changes
the status LED again. -/
theorem led_stuck_violation : ¬ Changeable := by
  intro h
  have hm : messages ⟨1, 0⟩ [mk 1 [200]] { led := some 0 } = some { led := some (-56) } := by decide +kernel
  obtain ⟨ms, c'', h1, h2⟩ := h ⟨1, 0⟩ (mk 1 [200]) { led := some 0 } _ (by constructor <;> decide +kernel) hm
  rw [messages_led_out (v := -56) (by decide) ms _ rfl h1] at h2
  cases h2

/-- The claim: the home screen is only ever set to a content the device has. -/
def ContentAvailable : Prop := ∀ avail b c k, (apply avail .content b c).content = some k → c.content ≠ some k →
  0 ≤ k ∧ avail.testBit k.toNat = true

/-- C57 fails: a message with two contents at once switches the home screen off, even on a device whose home
screen cannot be off. -/
theorem two_contents_violation : ¬ ContentAvailable := by
  intro h
  have := h 6 ([0, 0, 0, 0, 0, 0, 0, 0] ++ [6, 0, 0, 0, 0, 0, 0, 0]) { content := some 1 } 0 (by decide) (by decide)
  revert this
  decide

/-! ## What the device sends -/

theorem before_max (fs : Nat) (i : Nat) : before fs i ≤ 31 := by
  have h9 : before fs 9 ≤ 31 := by
    simp only [before, fieldAt, Option.map_some, Option.getD_some, F.size]
    repeat' split
    all_goals omega
  rcases Nat.lt_or_ge i 9 with h | h
  · exact Nat.le_trans (before_mono fs (by omega)) h9
  · rw [before_high fs i h]
    exact h9

/-- The bytes written so far hold the fields below bit `i` in their places. -/
def Written (avail fs : Nat) (c : Cfg) (i : Nat) (acc : List Nat) : Prop :=
  acc.length = before fs i ∧ ∀ f : F, fs.testBit f.bit = true → f.bit < i →
    (acc.drop (before fs f.bit)).take f.size = fill avail f c

theorem fillLoop_run (avail fs : Nat) (c : Cfg) : ∀ {n i : Nat} {acc : List Nat}, i + n = 64 →
    Written avail fs c i acc → ∃ acc', fillLoop avail fs c n i acc = some acc' ∧ Written avail fs c 64 acc' := by
  intro n
  induction n with
  | zero =>
    intro i acc hn h
    rw [show i = 64 by omega] at h
    exact ⟨acc, rfl, h⟩
  | succ n ih =>
    intro i acc hn h
    rw [fillLoop]
    have hskip : (fs.testBit i = true → fieldAt i = none) → Written avail fs c (i + 1) acc := by
      intro hno
      refine ⟨?_, fun f h1 h2 => h.2 f h1 ?_⟩
      · rw [before, h.1]
        split
        · rename_i hb; rw [hno hb]; rfl
        · rfl
      · rcases Nat.lt_or_ge f.bit i with hl | hl
        · exact hl
        · exfalso
          have he : f.bit = i := by omega
          have hf := fieldAt_bit f
          rw [he] at h1 hf
          rw [hno h1] at hf
          cases hf
    by_cases hb : fs.testBit i = true
    · rw [if_pos hb]
      cases hf : fieldAt i with
      | none => exact ih (by omega) (hskip (fun _ => hf))
      | some f =>
        dsimp only
        have hs := before_succ fs hb hf
        have hm := before_max fs (i + 1)
        rw [if_neg (by rw [h.1]; omega)]
        refine ih (by omega) ⟨?_, fun g h1 h2 => ?_⟩
        · rw [List.length_append, h.1, fill_length, hs]
        · by_cases hg : g = f
          · subst hg
            rw [bit_of_fieldAt hf, ← h.1, List.drop_left, ← fill_length avail g c, List.take_length]
          · have hlt : g.bit < i := by
              have : g.bit ≠ i := by
                intro he
                apply hg
                have := fieldAt_bit g
                rw [he, hf] at this
                injection this with this
                exact this.symm
              omega
            have hg' := h.2 g h1 hlt
            have hlen : before fs g.bit + g.size ≤ acc.length := by
              rw [h.1, ← before_succ fs h1 (fieldAt_bit g)]
              exact before_mono fs (by omega)
            rw [List.drop_append_of_le_length (by omega), List.take_append_of_le_length (by simp; omega)]
            exact hg'
    · rw [if_neg hb]
      exact ih (by omega) (hskip (fun h => absurd h hb))

/-- **C57, the message of the device.** Whatever fields are asked for, the message can be built, fits, and
holds each known field in its place. -/
theorem report_complete (d : Dev) (require : Nat) (c : Cfg) :
    ∃ m, fillMsg d require c = some m ∧ Received m ∧ m.fields = (if require ≠ 0 then require else d.used) ∧
      m.avail = d.used ∧ m.size = before m.fields 64 ∧ ∀ f, m.has f → m.bytes f = fill d.avail f c := by
  unfold fillMsg
  dsimp only
  generalize hfs : (if require ≠ 0 then require else d.used) = fs
  obtain ⟨acc, h1, h2, h3⟩ := fillLoop_run d.avail fs c (n := 64) (i := 0) (acc := []) (by omega)
    ⟨rfl, fun f _ h => absurd h (by omega)⟩
  rw [h1]
  have hm := before_max fs 64
  refine ⟨_, rfl, ⟨?_, ?_⟩, rfl, rfl, h2, ?_⟩
  · show (acc ++ List.replicate (512 - acc.length) 0).length = 512
    rw [List.length_append, List.length_replicate, h2]
    omega
  · show acc.length ≤ 512
    rw [h2]
    omega
  · intro f hf
    have hbit : f.bit < 64 := by cases f <;> decide
    have hlen : before fs f.bit + f.size ≤ acc.length := by
      rw [h2, ← before_succ fs hf (fieldAt_bit f)]
      exact before_mono fs (by omega)
    show ((acc ++ List.replicate (512 - acc.length) 0).drop (before fs f.bit)).take f.size = _
    rw [List.drop_append_of_le_length (by omega), List.take_append_of_le_length (by simp; omega)]
    exact h3 f hf hbit

/-- The full claim: what the device sends it would itself accept. -/
def ReportConsistent : Prop := ∀ d require c m, fillMsg d require c = some m → Consistent m

/-- **C57, the message of the device is consistent (partial: only known fields are asked for).** -/
theorem report_consistent_partial {d : Dev} {require : Nat} {c : Cfg} {m : Msg}
    (h : fillMsg d require c = some m)
    (hk : ∀ i < 64, (if require ≠ 0 then require else d.used).testBit i = true → (fieldAt i).isSome) :
    Consistent m := by
  obtain ⟨m', h1, _, h3, _, h5, _⟩ := report_complete d require c
  rw [h1] at h
  injection h with h
  subst h
  refine ⟨fun i hi hb => hk i hi ?_, h5.symm⟩
  rw [← h3]
  exact hb

/-- C57 fails: when the server knows a field the device does not, the device answers with a message that
contains that field without its bytes. -/
theorem unknown_report_violation : ¬ ReportConsistent := by
  intro h
  have hp : fillMsg ⟨1, 0⟩ (enter ⟨1, 0⟩ false false { avail := 2 ^ 20 + 1 } { first := true }).2.require {} =
      some { last := true, avail := 1, fields := 2 ^ 20, size := 0, data := List.replicate 512 0 } := by
    decide +kernel
  have := (h _ _ _ _ hp).1 20 (by decide) (show Nat.testBit (2 ^ 20) 20 = true by decide)
  revert this
  decide

/-- **C57, an echo changes nothing (partial: documented values, volume set).** The server sending back what
the device reported is accepted and leaves the configuration as it is. -/
theorem echo_harmless_partial {d : Dev} {ready : Bool} {require : Nat} {c : Cfg} {m : Msg} {o : Inst}
    (h : fillMsg d require c = some m) (hs : Sane d.avail c) (ho : o.code = 255)
    (hk : ∀ i < 64, (if require ≠ 0 then require else d.used).testBit i = true → (fieldAt i).isSome) :
    ∃ o', process d false ready m o c = some (o', c) ∧ o'.code = 1 := by
  have hc := report_consistent_partial h hk
  obtain ⟨m', h1, h2, h3, _, h5, h6⟩ := report_complete d require c
  rw [h1] at h
  injection h with h
  subst h
  have hl : m'.last = true := by
    unfold fillMsg at h1
    dsimp only at h1
    rw [Option.map_eq_some_iff] at h1
    obtain ⟨b, _, h1⟩ := h1
    rw [← h1]
  obtain ⟨o1, c1, p1, p2⟩ := process_cases (d := d) (flag := false) (ready := ready) (o := o) (c := c) h2
  have hpre := precheck_consistent hc (n := 64) (i := 0) (by omega)
  rw [show before m'.fields 0 = 0 from rfl] at hpre
  rcases p2 with p2 | p2 | p2
  · rw [enter_go ho] at p2; exact absurd p2.1 (by simp)
  · exact absurd hpre p2.2.1
  · obtain ⟨k, _, _, _, k4⟩ := p2.2.2.2
    have : c1 = c := by
      apply part_ext
      intro f
      by_cases hf : m'.has f ∧ f.bit < reach m' k
      · rw [(k4 f).1 hf, h6 f hf.1]
        exact get_set_partial f hs
      · exact (k4 f).2 hf
    refine ⟨o1, by rw [p1, this], ?_⟩
    rw [p2.2.2.1, enter_code ho, hl]
    rfl

/-- The full claim. -/
def EchoHarmless : Prop := ∀ d c m, fillMsg d 0 c = some m → ∃ o, process d false false m {} c = some (o, c)

/-- C57 fails: a device without a stored volume reports 0 % and takes the echo for a change. -/
theorem volume_echo_violation : ¬ EchoHarmless := by
  intro h
  obtain ⟨o, ho⟩ := h ⟨4, 0⟩ {} (mk 4 [0] |> fun m => { m with avail := 4 }) (by decide +kernel)
  have hp : process ⟨4, 0⟩ false false (mk 4 [0] |> fun m => { m with avail := 4 }) {} {} =
      some ({ endFlag := true, code := 1 }, { volume := some 0 }) := by decide +kernel
  rw [hp] at ho
  simp at ho

example : Sane 0xff { volume := some 20, content := some 3 } :=
  ⟨by decide, ⟨20, rfl, by decide⟩, by decide, by decide, by decide, by decide, by decide, by decide⟩

example : ∃ m, fillMsg ⟨0x1ff, 0xff⟩ 0 { volume := some 20, content := some 3 } = some m ∧ m.size = 31 :=
  ⟨_, rfl, by decide +kernel⟩

end Verif.DevCfg
