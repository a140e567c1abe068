import Verif.ChanCfg.Model

/-!
# Exchange of the configuration of a channel: theorems
-/

namespace Verif.ChanCfg

set_option linter.unusedSectionVars false

variable {α μ : Type} [DecidableEq α]

/-! ## Specification -/

/-- A change made on the device is never forgotten: as long as it has not been sent on this connection it is
waiting to be sent, and as long as the server has not confirmed it, it is marked in the storage. -/
def NeverLost (E : Elem α μ) : Prop := ∀ (v : α) ops s out, run E ops { val := v } = (s, out) →
  (s.unsent = true → s.st = .pending) ∧ (s.unacked = true → s.flag = true)

/-- The behaviour of the server assumed for the partial claim: while a change waits for its confirmation the
server neither disables the channel nor sends its own configuration after the device has sent the change, and it
answers (a configuration, or an OCR configuration that it refuses) before the next change. -/
def Fair (s : S α) : Op α μ → Prop
  | .message (.config e _) => s.unacked = true → s.st = .pending ∧ e = true
  | .message (.ocrConfig e _) => s.unacked = true → e = true
  | .message (.result o k) => o = false ∨ k = false → s.unsent = false
  | _ => True

/-- All along a history. -/
def AllFair (E : Elem α μ) : List (Op α μ) → S α → Prop
  | [], _ => True
  | op :: ops, s => Fair s op ∧ AllFair E ops (step E s op).1

/-! ## Nothing is lost -/

/-- The invariant. -/
structure Kept (s : S α) : Prop where
  unsent : s.unsent = true → s.st = .pending ∧ s.unacked = true
  unacked : s.unacked = true → s.flag = true ∧ (s.st = .pending ∨ s.st = .send ∨ s.st = .failed)

theorem kept_trigger {s : S α} (h : Kept s) : Kept (trigger s) := by
  unfold trigger
  split
  · exact h
  · exact ⟨fun a => ⟨rfl, (h.unsent a).2⟩, fun a => ⟨(h.unacked a).1, .inl rfl⟩⟩

/-- A state with nothing unconfirmed. -/
theorem kept_clean {s : S α} (h : s.unacked = false) (h2 : s.unsent = false) : Kept s :=
  ⟨fun a => (by rw [h2] at a; cases a), fun a => (by rw [h] at a; cases a)⟩

theorem Kept.clean {s : S α} (h : Kept s) (hu : s.unacked = false) : s.unsent = false := by
  cases hs : s.unsent with
  | false => rfl
  | true => rw [(h.unsent hs).2] at hu; cases hu

theorem kept_askOcr {s : S α} (h : Kept s) : Kept (askOcr s) := by
  unfold askOcr
  split
  · rename_i hc
    have hu : s.unacked = false := by
      cases hu : s.unacked with
      | false => rfl
      | true => rcases (h.unacked hu).2 with h | h | h <;> rw [hc.1] at h <;> cases h
    exact kept_clean hu (h.clean hu)
  · exact h

theorem kept_step {E : Elem α μ} (hE : ∀ a, (E.fill a).isSome) {s : S α} {op : Op α μ} (hk : Kept s)
    (hf : Fair s op) : Kept (step E s op).1 := by
  cases op with
  | change v =>
    simp only [step, change]
    split
    · exact hk
    · exact ⟨fun _ => ⟨rfl, rfl⟩, fun _ => ⟨rfl, .inl rfl⟩⟩
  | registered =>
    simp only [step]
    have key : s.unacked = true → (registered E s).st = .pending := by
      intro hu
      unfold registered
      rcases (hk.unacked hu).2 with h | h | h <;> rw [h]
    exact ⟨fun a => ⟨key a, a⟩, fun a => ⟨(hk.unacked a).1, .inl (key a)⟩⟩
  | restart =>
    simp only [step]
    refine ⟨fun a => ⟨?_, a⟩, fun a => ⟨(hk.unacked a).1, .inl ?_⟩⟩
    · show (if s.flag then St.pending else St.none) = _
      rw [(hk.unacked a).1]; rfl
    · show (if s.flag then St.pending else St.none) = _
      rw [(hk.unacked a).1]; rfl
  | pass b r =>
    simp only [step]
    unfold pass
    split
    · exact hk
    · split
      · rename_i hst
        split
        · split
          · exact ⟨fun a => Bool.noConfusion a, fun a => ⟨(hk.unacked a).1, .inr (.inl rfl)⟩⟩
          · exact hk
        · rename_i hn
          have := hE s.val
          rw [hn] at this
          cases this
      · rename_i hst
        have hu : s.unacked = false := by
          cases hu : s.unacked with
          | false => rfl
          | true => rcases (hk.unacked hu).2 with h | h | h <;> rw [hst] at h <;> cases h
        split
        · split
          · exact kept_clean hu (hk.clean hu)
          · exact hk
        · exact kept_askOcr (kept_clean hu (hk.clean hu))
      · exact kept_askOcr hk
  | message i =>
    cases i with
    | finished =>
      simp only [step]
      refine ⟨fun a => ?_, fun a => ?_⟩
      · have := hk.unsent a
        refine ⟨?_, this.2⟩
        show (if s.st = .wait then St.none else s.st) = _
        rw [this.1]; rfl
      · refine ⟨(hk.unacked a).1, ?_⟩
        show (if s.st = .wait then St.none else s.st) = _ ∨ (if s.st = .wait then St.none else s.st) = _ ∨ (if s.st = .wait then St.none else s.st) = _
        rcases (hk.unacked a).2 with h | h | h <;> rw [h] <;> simp
    | config e c =>
      simp only [step]
      cases hu : s.unacked with
      | true =>
        obtain ⟨h1, h2⟩ := hf hu
        unfold config
        rw [if_neg (by simp [h2]), if_pos h1]
        exact hk
      | false =>
        have hs := hk.clean hu
        unfold config
        split
        · exact kept_clean hu hs
        · split
          · exact hk
          · split
            · exact kept_trigger hk
            · generalize E.apply _ s.val = r
              obtain ⟨v, a⟩ := r
              cases a
              · exact kept_clean hu hs
              · exact kept_clean hu hs
              · exact kept_clean hu hs
              · exact kept_trigger (kept_clean hu hs)
              · exact kept_clean hu hs
    | ocrConfig e g =>
      simp only [step]
      cases hu : s.unacked with
      | true =>
        have h2 : e = true := hf hu
        unfold ocrConfig
        rw [if_neg (by simp [h2])]
        split
        · exact kept_trigger hk
        · refine ⟨fun a => ?_, fun a => ⟨(hk.unacked a).1, ?_⟩⟩
          · have := hk.unsent a
            refine ⟨?_, this.2⟩
            show (if s.st = .ocrSend then St.none else s.st) = _
            rw [this.1]; rfl
          · show (if s.st = .ocrSend then St.none else s.st) = _ ∨ (if s.st = .ocrSend then St.none else s.st) = _ ∨ (if s.st = .ocrSend then St.none else s.st) = _
            rcases (hk.unacked a).2 with h | h | h <;> rw [h] <;> simp
      | false =>
        have hs := hk.clean hu
        unfold ocrConfig
        split
        · exact kept_clean hu hs
        · split
          · exact kept_trigger hk
          · exact kept_clean hu hs
    | result o k =>
      simp only [step]
      unfold result
      have hf : o = false ∨ k = false → s.unsent = false := hf
      cases o <;> cases k <;> simp only [Bool.false_eq_true, if_false, if_true]
      · have hs := hf (.inl rfl)
        unfold clearChanged
        rw [if_pos (.inr rfl)]
        exact ⟨fun a => absurd (show s.unsent = true from a) (by simp [hs]),
          fun a => ⟨(hk.unacked a).1, .inr (.inr rfl)⟩⟩
      · have hs := hf (.inl rfl)
        unfold clearChanged
        split
        · exact kept_clean hs hs
        · exact kept_clean hs hs
      · have hs := hf (.inr rfl)
        exact ⟨fun a => absurd (show s.unsent = true from a) (by simp [hs]),
          fun a => ⟨(hk.unacked a).1, .inr (.inr rfl)⟩⟩
      · exact hk

theorem kept_run {E : Elem α μ} (hE : ∀ a, (E.fill a).isSome) (ops : List (Op α μ)) (s : S α) (hk : Kept s)
    (hf : AllFair E ops s) : Kept (run E ops s).1 := by
  induction ops generalizing s with
  | nil => exact hk
  | cons op ops ih => exact ih _ (kept_step hE hk hf.1) hf.2

/-- A change made on the device waits to be sent until it is sent, and stays marked in the storage until it is
confirmed, when the server keeps to `Fair`. Missing for `NeverLost`: see the violations below. -/
theorem never_lost_partial {E : Elem α μ} (hE : ∀ a, (E.fill a).isSome) (v : α) (ops : List (Op α μ))
    (hf : AllFair E ops { val := v }) {s : S α} {out} (h : run E ops { val := v } = (s, out)) :
    (s.unsent = true → s.st = .pending) ∧ (s.unacked = true → s.flag = true) := by
  have hk := kept_run hE ops { val := v } ⟨fun a => Bool.noConfusion a, fun a => Bool.noConfusion a⟩ hf
  rw [h] at hk
  exact ⟨fun a => (hk.unsent a).1, fun a => (hk.unacked a).1⟩

/-- A class whose configuration is one number. -/
def plain : Elem Nat Nat where
  fill v := some v
  apply m _ := (m, .keep)

/-- The same with an OCR configuration. -/
def meter : Elem Nat Nat where
  fill v := some v
  apply m _ := (m, .keep)
  ocr := true

example : AllFair plain
    [.registered, .change 5, .message .finished, .pass false true, .registered, .message (.config true (some 3)),
     .message .finished, .pass false true, .message (.result false true)] { val := 1 } := by
  simp [AllFair, Fair, step, change, registered, finished, config, pass, saveFlag, plain]

/-- The answer to an earlier message forgets a change made after the message was sent. -/
theorem late_answer_violation : ¬ NeverLost plain := by
  intro h
  have := (h 1 [.registered, .message .finished, .change 5, .pass false true, .change 6,
    .message (.result false true)] _ _ rfl).1 (by decide +kernel)
  revert this
  decide +kernel

/-- A message about a disabled channel forgets a waiting change. -/
theorem disabled_violation : ¬ NeverLost plain := by
  intro h
  have := (h 1 [.change 5, .registered, .message (.config false none)] _ _ rfl).1 (by decide +kernel)
  revert this
  decide +kernel

/-- A refused OCR configuration keeps a waiting change from being sent. -/
theorem refused_ocr_violation : ¬ NeverLost meter := by
  intro h
  have := (h 1 [.registered, .message .finished, .pass false true, .pass false true, .change 5,
    .message (.result true false)] _ _ rfl).1 (by decide +kernel)
  revert this
  decide +kernel

/-! ## A waiting change is sent -/

/-- Once the server has sent its configurations, the first pass that is not busy sends a waiting change, with the
settings of that moment. -/
theorem pending_sent (E : Elem α μ) (s : S α) (m : μ) (h1 : s.fin = true) (h2 : s.st = .pending)
    (h3 : E.fill s.val = some m) :
    (step E s (.pass false true)).2 = [.config m] ∧ (step E s (.pass false true)).1.st = .send := by
  simp only [step]
  unfold pass
  rw [if_neg (by simp [h1]), h2]
  dsimp only
  rw [h3]
  exact ⟨rfl, rfl⟩

/-- Until then nothing is sent: no configuration leaves the device before the server has sent its own. -/
theorem silent_before_finished (E : Elem α μ) (s : S α) (ops : List (Op α μ)) (h1 : s.fin = false)
    (h2 : .message .finished ∉ ops) : (run E ops s).2 = [] := by
  induction ops generalizing s with
  | nil => rfl
  | cons op ops ih =>
    simp only [List.mem_cons, not_or] at h2
    have hfin : (step E s op).1.fin = false ∧ (step E s op).2 = [] := by
      cases op with
      | change v =>
        refine ⟨?_, rfl⟩
        simp only [step, change]
        split
        · exact h1
        · exact h1
      | registered => exact ⟨rfl, rfl⟩
      | restart => exact ⟨rfl, rfl⟩
      | pass b r =>
        simp only [step, pass]
        rw [if_pos (.inr h1)]
        exact ⟨h1, rfl⟩
      | message i =>
        cases i with
        | finished => exact absurd rfl h2.1
        | config e c =>
          simp only [step, config, and_true]
          split
          · exact h1
          · split
            · exact h1
            · split
              · unfold trigger
                split
                · exact h1
                · exact h1
              · generalize E.apply _ s.val = r
                obtain ⟨v, a⟩ := r
                cases a
                · exact h1
                · exact h1
                · exact h1
                · unfold after trigger
                  dsimp only
                  split
                  · exact h1
                  · exact h1
                · exact h1
        | ocrConfig e g =>
          simp only [step, ocrConfig, and_true]
          split
          · exact h1
          · split
            · unfold trigger
              split
              · exact h1
              · exact h1
            · exact h1
        | result o k =>
          simp only [step, result, clearChanged, and_true]
          cases o <;> cases k <;> simp only [Bool.false_eq_true, if_false, if_true]
          · rw [if_pos (.inr trivial)]
            exact h1
          · split
            · exact h1
            · exact h1
          · exact h1
          · exact h1
    show (step E s op).2 ++ (run E ops (step E s op).1).2 = []
    rw [hfin.2, ih _ hfin.1 h2.2]
    rfl

example : (run plain [.registered, .change 5, .pass false true, .message .finished, .pass false true] { val := 1 }).2
    = [.config 5] := by decide +kernel

/-! ## A refused configuration -/

/-- After a refusal the device does not insist: on the same connection nothing more is sent until a setting is
changed on the device. -/
def NoInsisting (E : Elem α μ) : Prop := ∀ (s : S α) ops, s.st = .failed →
  (∀ op ∈ ops, match op with | .change _ => False | .registered => False | .restart => False | _ => True) →
  (run E ops s).2 = []

/-- It holds for classes that do not mark or clear the change when they take a configuration, as long as the
channel is not disabled. -/
theorem no_insisting_partial {E : Elem α μ} (hE : ∀ m a, (E.apply m a).2 = .keep ∨ (E.apply m a).2 = .trigger)
    (s : S α) (ops : List (Op α μ)) (h : s.st = .failed)
    (ho : ∀ op ∈ ops, match op with
      | .change _ => False | .registered => False | .restart => False
      | .message (.config e _) => e = true | .message (.ocrConfig e _) => e = true | _ => True) :
    (run E ops s).2 = [] := by
  induction ops generalizing s with
  | nil => rfl
  | cons op ops ih =>
    have hop := ho op List.mem_cons_self
    have key : (step E s op).1.st = .failed ∧ (step E s op).2 = [] := by
      cases op with
      | change v => exact hop.elim
      | registered => exact hop.elim
      | restart => exact hop.elim
      | pass b r =>
        simp only [step, pass]
        split
        · exact ⟨h, rfl⟩
        · rw [h]
          dsimp only
          unfold askOcr
          rw [if_neg (by rw [h]; exact fun a => nomatch a.1)]
          exact ⟨h, rfl⟩
      | message i =>
        cases i with
        | finished =>
          refine ⟨?_, rfl⟩
          show (if s.st = .wait then St.none else s.st) = _
          rw [h]; rfl
        | config e c =>
          have he : e = true := hop
          refine ⟨?_, rfl⟩
          simp only [step, config]
          rw [if_neg (by simp [he]), if_neg (by rw [h]; exact fun a => nomatch a)]
          cases c with
          | none =>
            unfold trigger
            rw [if_pos h]
            exact h
          | some m =>
            dsimp only
            rcases hE m s.val with hk | hk
            · rw [hk]; exact h
            · rw [hk]
              unfold after trigger
              dsimp only
              rw [if_pos h]
              exact h
        | ocrConfig e g =>
          have he : e = true := hop
          refine ⟨?_, rfl⟩
          simp only [step, ocrConfig]
          rw [if_neg (by simp [he])]
          cases g with
          | none =>
            unfold trigger
            rw [if_pos h]
            exact h
          | some g =>
            dsimp only
            rw [if_neg (by rw [h]; exact fun a => nomatch a)]
            exact h
        | result o k =>
          refine ⟨?_, rfl⟩
          simp only [step, result, clearChanged]
          cases o <;> cases k <;> simp only [Bool.false_eq_true, if_false, if_true]
          · rw [if_pos (.inr trivial)]
          · rw [if_pos (.inr h)]
            exact h
          · exact h
    show (step E s op).2 ++ (run E ops (step E s op).1).2 = []
    rw [key.2, ih _ key.1 fun op ho' => ho op (List.mem_cons_of_mem _ ho')]
    rfl

example : (run plain [.message (.config true none), .pass false true, .message (.config true (some 2)),
    .pass false true] { val := 1, st := .failed, fin := true }).2 = [] := by decide +kernel

/-- An empty configuration, refused; after "disabled" and "enabled" it is sent again. -/
theorem insisting_violation : ¬ NoInsisting plain := by
  intro h
  have := h { val := 1, st := .failed, fin := true }
    [.message (.config false none), .message (.config true none), .pass false true] rfl (by simp)
  revert this
  decide +kernel

/-- A change made on the server while the device was away reaches the device when nothing was changed there. -/
def ServerWins (E : Elem α μ) : Prop := ∀ (v : α) ops m, (∀ w, .change w ∉ ops) →
  (run E (ops ++ [.registered, .message (.config true (some m))]) { val := v }).1.val = (E.apply m (run E ops { val := v }).1.val).1

/-- After a refused OCR configuration the device takes itself for changed: it ignores the configuration of the
server on the next connection and overwrites it with its own. -/
theorem false_change_violation : ¬ ServerWins meter ∧
    (run meter [.registered, .message .finished, .pass false true, .pass false true, .message (.result true false),
      .registered, .message (.config true (some 9)), .message .finished, .pass false true] { val := 1 }).2
      = [.ocr, .config 1] := by
  refine ⟨fun h => ?_, by decide +kernel⟩
  have := h 1 [.registered, .message .finished, .pass false true, .pass false true, .message (.result true false)] 9 (by simp)
  revert this
  decide +kernel

/-- A state in which the device has nothing of its own. -/
def Idle (s : S α) : Prop := s.st ≠ .pending ∧ s.st ≠ .send ∧ s.st ≠ .failed

theorem registered_idle (E : Elem α μ) (s : S α) (h : Idle s) : (registered E s).st = .wait := by
  obtain ⟨h1, h2, h3⟩ := h
  unfold registered
  dsimp only
  split
  all_goals first | rfl | skip
  cases hs : s.st <;> simp_all

/-- It reaches the device when the last state was idle: neither changed, nor waiting for an answer, nor refused. -/
theorem server_wins_partial (E : Elem α μ) (s : S α) (m : μ) (h : Idle s) :
    (config E true (some m) (registered E s)).val = (E.apply m s.val).1 := by
  unfold config
  have hw := registered_idle E s h
  rw [if_neg (by simp), if_neg (by rw [hw]; exact fun a => nomatch a)]
  show (after (E.apply m s.val).2 { registered E s with val := (E.apply m s.val).1 }).val = _
  generalize (E.apply m s.val).2 = a
  cases a
  · rfl
  · rfl
  · rfl
  · unfold after trigger
    dsimp only
    split
    · rfl
    · rfl
  · rfl

example : Idle ({ val := 1, st := .ocrSend } : S Nat) := by
  refine ⟨?_, ?_, ?_⟩ <;> decide

end Verif.ChanCfg
