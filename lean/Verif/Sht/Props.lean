import Verif.Sht.Spec
import Mathlib.Tactic.Ring
import Mathlib.Tactic.NormNum
import Mathlib.Tactic.Linarith

/-! # SHT sensors: proofs -/

namespace Verif.Sht

theorem limited_clamp (x : Rat) : limited x (clamp x) := by
  unfold limited clamp
  by_cases h : x < 0
  · rw [if_pos h]; exact Or.inl ⟨h, rfl⟩
  · rw [if_neg h]
    by_cases h2 : x > 100
    · rw [if_pos h2]; exact Or.inr (Or.inl ⟨h2, rfl⟩)
    · rw [if_neg h2]; exact Or.inr (Or.inr ⟨not_lt.1 h, not_lt.1 h2, rfl⟩)

theorem tempRaw_eq {f : Frame} (h : IsFrame f) : tempRaw f = 256 * f.t0 + f.t1 := by
  obtain ⟨h0, h1, -⟩ := h
  unfold tempRaw; omega

theorem humiRaw_eq {f : Frame} (h : IsFrame f) : humiRaw f = 256 * f.h0 + f.h1 := by
  obtain ⟨-, -, -, h0, h1, -⟩ := h
  unfold humiRaw; omega

theorem tempOf_eq (d : Dev) {f : Frame} (h : IsFrame f) : tempOf d (tempRaw f) = sheetTemp f := by
  rw [tempRaw_eq h]
  unfold tempOf sheetTemp
  generalize (((256 * f.t0 + f.t1 : Nat)) : Rat) = x
  cases d
  · show -45 + 175 / 100 * x / (65535 / 100) = _
    norm_num; ring
  · show -45 + 175 * x / 65535 = _
    norm_num

theorem humOf_eq (d : Dev) {f : Frame} (h : IsFrame f) : humOf d (humiRaw f) = clamp (sheetHum d f) := by
  rw [humiRaw_eq h]
  cases d
  · show clamp (((256 * f.h0 + f.h1 : Nat) : Rat) / (65535 / 100)) = clamp (100 * ((256 * f.h0 + f.h1 : Nat) : Rat) / (2 ^ 16 - 1))
    generalize (((256 * f.h0 + f.h1 : Nat)) : Rat) = x
    rw [show x / (65535 / 100) = 100 * x / (2 ^ 16 - 1) by norm_num; ring]
  · show clamp (-6 + 125 * ((256 * f.h0 + f.h1 : Nat) : Rat) / 65535) = clamp (-6 + 125 * ((256 * f.h0 + f.h1 : Nat) : Rat) / (2 ^ 16 - 1))
    generalize (((256 * f.h0 + f.h1 : Nat)) : Rat) = x
    rw [show ((2 : Rat) ^ 16 - 1) = 65535 by norm_num]

theorem run_snoc (d : Dev) (hf : Bool) (bs : List Bus) (b : Bus) : run d hf (bs ++ [b]) = poll d hf (run d hf bs) b := by
  unfold run; rw [List.foldl_append]; rfl

theorem read_ok {d : Dev} {b : Bus} {f : Frame} (hb : b.recv = some f) (hs : b.sent = true) (hi : IsFrame f) (s : S) :
    readSensor d b s = { s with temp := sheetTemp f, hum := clamp (sheetHum d f) } := by
  have e : store d b s = { s with temp := sheetTemp f, hum := clamp (sheetHum d f) } := by
    unfold store
    rw [show buffer b = f by unfold buffer; rw [hb]; rfl, tempOf_eq d hi, humOf_eq d hi]
  cases d with
  | sht30 => show (if b.sent then store .sht30 b s else s) = _; rw [if_pos hs]; exact e
  | sht40 => exact e

/-- If the temperature is asked for first, a reading that succeeds shows the values of the data sheet, whatever happened
before. -/
theorem success_shown_partial (d : Dev) (bs : List Bus) (b : Bus) (f : Frame) (hb : b.recv = some f) (hs : b.sent = true)
    (hi : IsFrame f) : Shows d f (run d false (bs ++ [b])).pub := by
  rw [run_snoc]
  unfold poll
  rw [read_ok hb hs hi]
  exact ⟨rfl, limited_clamp _⟩

/-- In either order the temperature is that of the reading, and the humidity is that of this or of the reading before. -/
theorem success_any_order (d : Dev) (hf : Bool) (bs : List Bus) (a b : Bus) (f g : Frame) (ha : a.recv = some g)
    (hsa : a.sent = true) (hia : IsFrame g) (hb : b.recv = some f) (hs : b.sent = true) (hi : IsFrame f) :
    (run d hf (bs ++ [a] ++ [b])).pub.1 = sheetTemp f ∧
      (limited (sheetHum d f) (run d hf (bs ++ [a] ++ [b])).pub.2 ∨ limited (sheetHum d g) (run d hf (bs ++ [a] ++ [b])).pub.2) := by
  rw [run_snoc, run_snoc]
  unfold poll
  rw [read_ok hb hs hi, read_ok ha hsa hia]
  refine ⟨rfl, ?_⟩
  cases hf
  · exact Or.inl (limited_clamp _)
  · exact Or.inr (limited_clamp _)

theorem sheetTemp_range {f : Frame} (h : IsFrame f) : -45 ≤ sheetTemp f ∧ sheetTemp f ≤ 130 := by
  obtain ⟨h0, h1, -⟩ := h
  unfold sheetTemp
  have hx : (256 * f.t0 + f.t1 : Nat) ≤ 65535 := by omega
  generalize 256 * f.t0 + f.t1 = n at *
  have a : ((n : Nat) : Rat) ≤ 65535 := by exact_mod_cast hx
  have b : (0 : Rat) ≤ ((n : Nat) : Rat) := by exact_mod_cast Nat.zero_le n
  generalize ((n : Nat) : Rat) = x at *
  have e : 175 * x / (2 ^ 16 - 1) = x * (175 / 65535) := by norm_num; ring
  rw [e]
  constructor
  · have : 0 ≤ x * (175 / 65535) := mul_nonneg b (by norm_num)
    linarith
  · have : x * (175 / 65535) ≤ 65535 * (175 / 65535) := mul_le_mul_of_nonneg_right a (by norm_num)
    have e2 : (65535 * (175 / 65535) : Rat) = 175 := by norm_num
    linarith

theorem clamp_range (x : Rat) : 0 ≤ clamp x ∧ clamp x ≤ 100 := by
  rcases limited_clamp x with ⟨-, h⟩ | ⟨-, h⟩ | ⟨h1, h2, h⟩ <;> rw [h]
  · exact ⟨le_refl _, by norm_num⟩
  · exact ⟨by norm_num, le_refl _⟩
  · exact ⟨h1, h2⟩

/-- In the range of the sensor, or not available. -/
def Sane (s : S) : Prop := ((-45 ≤ s.temp ∧ s.temp ≤ 130) ∨ s.temp = -275) ∧ ((0 ≤ s.hum ∧ s.hum ≤ 100) ∨ s.hum = -1) ∧
  ((-45 ≤ s.pub.1 ∧ s.pub.1 ≤ 130) ∨ s.pub.1 = -275) ∧ ((0 ≤ s.pub.2 ∧ s.pub.2 ≤ 100) ∨ s.pub.2 = -1)

/-- Whatever happens on the bus, the values shown are in the range of the sensor or "not available". -/
theorem in_range (d : Dev) (hf : Bool) (bs : List Bus) (hi : ∀ b ∈ bs, ∀ f, b.recv = some f → IsFrame f) :
    Sane (run d hf bs) := by
  have hzero : IsFrame ⟨0, 0, 0, 0, 0, 0⟩ := by unfold IsFrame; decide
  suffices ∀ s : S, Sane s → Sane (bs.foldl (poll d hf) s) from this {} ⟨Or.inr rfl, Or.inr rfl, Or.inr rfl, Or.inr rfl⟩
  induction bs with
  | nil => exact fun s h => h
  | cons b bs ih =>
    intro s h
    refine ih (fun b' hb' => hi b' (List.mem_cons_of_mem _ hb')) _ ?_
    have hb : IsFrame (buffer b) := by
      unfold buffer
      cases hr : b.recv with
      | none => exact hzero
      | some f => exact hi b List.mem_cons_self f hr
    have hst : store d b s = { s with temp := sheetTemp (buffer b), hum := clamp (sheetHum d (buffer b)) } := by
      unfold store; rw [tempOf_eq d hb, humOf_eq d hb]
    have hr : readSensor d b s = s ∨ readSensor d b s = { s with temp := sheetTemp (buffer b), hum := clamp (sheetHum d (buffer b)) } := by
      cases d with
      | sht30 =>
        show (if b.sent then store .sht30 b s else s) = _ ∨ (if b.sent then store .sht30 b s else s) = _
        cases b.sent
        · exact Or.inl rfl
        · exact Or.inr hst
      | sht40 => exact Or.inr hst
    obtain ⟨h1, h2, h3, h4⟩ := h
    unfold poll
    rcases hr with e | e <;> rw [e]
    · refine ⟨h1, h2, h1, ?_⟩
      cases hf <;> exact h2
    · refine ⟨Or.inl (sheetTemp_range hb), Or.inl (clamp_range _), Or.inl (sheetTemp_range hb), ?_⟩
      cases hf
      · exact Or.inl (clamp_range _)
      · exact h2

/-- A higher temperature is never shown as a lower one. -/
theorem temp_mono (f g : Frame) (h : 256 * f.t0 + f.t1 < 256 * g.t0 + g.t1) : sheetTemp f < sheetTemp g := by
  unfold sheetTemp
  generalize 256 * f.t0 + f.t1 = a at *
  generalize 256 * g.t0 + g.t1 = b at *
  have hab : ((a : Nat) : Rat) < ((b : Nat) : Rat) := by exact_mod_cast h
  generalize ((a : Nat) : Rat) = x at *
  generalize ((b : Nat) : Rat) = y at *
  have e : ∀ z : Rat, 175 * z / (2 ^ 16 - 1) = z * (175 / 65535) := fun z => by norm_num; ring
  rw [e, e]
  have := mul_lt_mul_of_pos_right hab (show (0 : Rat) < 175 / 65535 by norm_num)
  linarith

/-! ## Violations -/

/-- The sensor does not answer: the SHT40 driver shows −45 °C and 0 %, in every such reading. -/
theorem no_answer_violation : ¬ Honest .sht40 false ∧
    ∀ bs sent, (run .sht40 false (bs ++ [⟨sent, none⟩])).pub = (-45, 0) := by
  have hall : ∀ bs sent, (run .sht40 false (bs ++ [⟨sent, none⟩])).pub = (-45, 0) := by
    intro bs sent
    rw [run_snoc]
    have h1 : tempOf .sht40 (tempRaw ⟨0, 0, 0, 0, 0, 0⟩) = -45 := by decide +kernel
    have h2 : humOf .sht40 (humiRaw ⟨0, 0, 0, 0, 0, 0⟩) = 0 := by decide +kernel
    exact Prod.ext h1 h2
  refine ⟨fun h => ?_, hall⟩
  have := (h [] ⟨false, none⟩ (fun f hf => by cases hf)).2 (Or.inl rfl)
  rw [hall [] false] at this
  revert this
  decide +kernel

/-- The same with the SHT30 driver when the request was acknowledged. -/
theorem no_data_violation : ¬ Honest .sht30 false ∧
    ∀ bs, (run .sht30 false (bs ++ [⟨true, none⟩])).pub = (-45, 0) := by
  have hall : ∀ bs, (run .sht30 false (bs ++ [⟨true, none⟩])).pub = (-45, 0) := by
    intro bs
    rw [run_snoc]
    have h1 : tempOf .sht30 (tempRaw ⟨0, 0, 0, 0, 0, 0⟩) = -45 := by decide +kernel
    have h2 : humOf .sht30 (humiRaw ⟨0, 0, 0, 0, 0, 0⟩) = 0 := by decide +kernel
    exact Prod.ext h1 h2
  refine ⟨fun h => ?_, hall⟩
  have := (h [] ⟨true, none⟩ (fun f hf => by cases hf)).2 (Or.inr fun f hf => by cases hf)
  rw [hall []] at this
  revert this
  decide +kernel

/-- The SHT30 is taken away: its last values are shown for ever. -/
theorem removed_violation (bs : List Bus) (b : Bus) (f : Frame) (hb : b.recv = some f) (hs : b.sent = true) (hi : IsFrame f)
    (n : Nat) (r : Option Frame) : Shows .sht30 f (run .sht30 false (bs ++ [b] ++ List.replicate n ⟨false, r⟩)).pub := by
  have key : ∀ n (s : S), s.pub = (s.temp, s.hum) →
      ((List.replicate n (⟨false, r⟩ : Bus)).foldl (poll .sht30 false) s).pub = s.pub := by
    intro n
    induction n with
    | zero => exact fun s _ => rfl
    | succ n ih =>
      intro s h
      rw [List.replicate_succ, List.foldl_cons, ih (poll .sht30 false s ⟨false, r⟩) rfl]
      exact h.symm
  have h1 := success_shown_partial .sht30 bs b f hb hs hi
  unfold run at *
  rw [List.foldl_append, key n _ (by rw [List.foldl_append]; rfl)]
  exact h1

/-- A reading with a wrong checksum is shown as if it were right. -/
theorem crc_ignored_violation (d : Dev) (bs : List Bus) (f : Frame) (hi : IsFrame f) :
    ¬ Honest d false ∧ Shows d f (run d false (bs ++ [⟨true, some f⟩])).pub := by
  refine ⟨fun h => ?_, success_shown_partial d bs _ f rfl rfl hi⟩
  have hg : IsFrame ⟨102, 102, 0, 128, 0, 0⟩ := by unfold IsFrame; decide
  have h1 := (h [] ⟨true, some ⟨102, 102, 0, 128, 0, 0⟩⟩ (fun f hf => by cases hf; exact hg)).2
    (Or.inr fun f hf => by cases hf; decide)
  have h2 := (success_shown_partial d [] ⟨true, some ⟨102, 102, 0, 128, 0, 0⟩⟩ _ rfl rfl hg).1
  rw [h1] at h2
  have := (sheetTemp_range hg).1
  rw [← h2] at this
  norm_num at this

/-- If the compiler calls `getHumi` first, the humidity shown is that of the reading before: the first one is shown with
"humidity not available". -/
theorem humidity_late_violation (d : Dev) : ¬ Honest d true := by
  intro h
  have hg : IsFrame ⟨0xBE, 0xEF, 0x92, 0xBE, 0xEF, 0x92⟩ := by unfold IsFrame; decide
  have h1 := (h [] ⟨true, some ⟨0xBE, 0xEF, 0x92, 0xBE, 0xEF, 0x92⟩⟩ (fun f hf => by cases hf; exact hg)).1 _ rfl rfl (by decide)
  have h2 : (run d true ([] ++ [⟨true, some ⟨0xBE, 0xEF, 0x92, 0xBE, 0xEF, 0x92⟩⟩])).pub.2 = -1 := by cases d <;> rfl
  have h3 := h1.2
  rw [h2] at h3
  rcases h3 with ⟨-, h4⟩ | ⟨-, h4⟩ | ⟨h5, -, h4⟩
  · norm_num at h4
  · norm_num at h4
  · rw [← h4] at h5; norm_num at h5

/-- Non-vacuity: 25 °C, 50 %. -/
example : Shows .sht30 ⟨0x66, 0x66, 0x93, 0x80, 0x00, 0xA2⟩ (run .sht30 false [⟨true, some ⟨0x66, 0x66, 0x93, 0x80, 0x00, 0xA2⟩⟩]).pub ∧
    (run .sht30 false [⟨true, some ⟨0x66, 0x66, 0x93, 0x80, 0x00, 0xA2⟩⟩]).pub.1 = 25 := by
  refine ⟨success_shown_partial .sht30 [] _ _ rfl rfl (by unfold IsFrame; decide), ?_⟩
  decide +kernel

end Verif.Sht
