import Verif.DevCfg.Values
import Verif.Common.Clock

/-!
# Exchange of the device configuration

Model of the part of `/repo/src/supla/protocol/supla_srpc.cpp` (cited as S) that drives one
`RemoteDeviceConfig`, of its `handleSetDeviceConfigResult`
(`/repo/src/supla/device/remote_device_config.cpp` 935-952) and of the "changed locally" flag in
`/repo/src/supla/storage/config.cpp` (cited as K, 390-406 and 492-524).

Simplified: what is written to the configuration is not lost at a restart (the moment of `commit` is not
modelled), the flag has been loaded once (K 493-503), and messages of a previous connection do not arrive on
the next one.
-/

namespace Verif.DevCfg

/-- The state. `changed` and `sent` are not in the program: "there is a local change that no complete message
has carried yet", and the time of the last message without an answer. -/
structure S where
  now : Nat := 0
  cfg : Cfg := {}
  /-- `deviceConfigChangeFlag`: 0 none, 1 changed, 2 ready to send -/
  flag : Nat := 0
  /-- `deviceConfigUpdateDelayTimestamp` -/
  ts : Nat := 0
  /-- `remoteDeviceConfig` -/
  inst : Option Inst := none
  /-- `setDeviceConfigReceivedAfterRegistration` -/
  recvd : Bool := false
  registered : Bool := false
  changed : Bool := false
  sent : Option Nat := none
deriving DecidableEq, Repr

/-- What the device sends: an answer, or a configuration. -/
inductive Out where
  | answer (code : Nat)
  | config (m : Msg)
deriving DecidableEq, Repr

/-- What happens. -/
inductive Op where
  | wait (ms : Nat)
  | change (c : Cfg)
  | connected
  | message (m : Msg)
  | result
  | pass
  | restart
deriving DecidableEq, Repr

/-- A sent message: it is complete when it has all fields of the device. -/
def note (d : Dev) (m : Msg) (s : S) : S :=
  { s with sent := some s.now, changed := if m.fields = d.used then false else s.changed }

/-- `handleDeviceConfig` (S 1208-1245). -/
def handle (d : Dev) (m : Msg) (s : S) : Option (S × List Out) :=
  match process d (s.flag ≠ 0) (s.flag = 2) m (s.inst.getD { first := !s.recvd }) s.cfg with
  | none => none
  | some (o, c) =>
    let s := { s with inst := some o, cfg := c }
    if o.endFlag then
      if o.require ≠ 0 then
        match fillMsg d o.require s.cfg with
        | some r => some (note d r s, [.answer o.code, .config r])
        | none => some (if s.flag = 2 then { s with flag := 0, ts := 0 } else s, [.answer o.code])
      else some ({ s with recvd := true, inst := none }, [.answer o.code])
    else some (s, [])

/-- `saveIfNeeded` (K 398-405). -/
def promote (s : S) : S :=
  if s.ts ≠ 0 then
    if since (clk s.now) s.ts > 1000 then { s with flag := if s.flag = 1 then 2 else s.flag, ts := 0 } else s
  else s

/-- The part of `iterate` for a registered device (S 872-889). -/
def offer (d : Dev) (s : S) : S × List Out :=
  if s.registered ∧ s.recvd ∧ s.flag = 2 ∧ s.inst = none then
    match fillMsg d 0 s.cfg with
    | some r => (note d r { s with inst := some {} }, [.config r])
    | none => ({ s with inst := some {}, flag := 0, ts := 0 }, [])
  else (s, [])

/-- `handleSetDeviceConfigResult` (S 1247-1266 and the method of the object). -/
def answered (s : S) : S :=
  match s.inst with
  | none => s
  | some _ =>
    let s := { s with recvd := true, inst := none, sent := none }
    if s.flag = 2 then { s with flag := 0, ts := 0 } else s

/-- One step. `change` is a change of a setting on the device (K 511-515); `connected` is a registration
(S 600-609); at a restart the flag is read back (K 492-505). -/
def step (d : Dev) (s : S) : Op → Option (S × List Out)
  | .wait ms => some ({ s with now := s.now + ms }, [])
  | .change c => some ({ s with cfg := c, flag := 1, ts := clk s.now, changed := true }, [])
  | .connected => some ({ s with registered := true, recvd := false, inst := none, sent := none }, [])
  | .message m => handle d m s
  | .result => some (answered s, [])
  | .pass => some (offer d (promote s))
  | .restart =>
    some ({ s with now := 0, flag := if s.flag = 0 then 0 else 2, ts := 0, inst := none, recvd := false, registered := false, sent := none }, [])

/-- A history. -/
def run (d : Dev) : List Op → S → Option (S × List Out)
  | [], s => some (s, [])
  | op :: ops, s =>
    match step d s op with
    | none => none
    | some (s, out) => (run d ops s).map fun r => (r.1, out ++ r.2)

/-! ## Specification -/

/-- A local change is never forgotten: as long as no complete message has carried it, it is marked. -/
def NeverLost : Prop := ∀ d ops s out, d.used ≠ 0 → d.used < 2 ^ 64 →
  (∀ m, .message m ∈ ops → Received m) → run d ops {} = some (s, out) → s.changed = true → s.flag ≠ 0

/-- The behaviour of the server assumed for the partial claim: its messages agree on the fields of the
device, it only answers messages, and within a second. -/
def Prompt (d : Dev) : List Op → S → Prop
  | [], _ => True
  | op :: ops, s =>
    (match op with
      | .message m => Received m ∧ m.avail = d.used
      | .result => ∃ t, s.sent = some t ∧ s.now ≤ t + 1000
      | _ => True) ∧
    ∀ s' out, step d s op = some (s', out) → Prompt d ops s'

/-! ## Nothing is lost -/

/-- The invariant. -/
structure Kept (d : Dev) (s : S) : Prop where
  flag : s.flag ≤ 2
  marked : s.changed = true → s.flag ≠ 0
  time : s.flag = 1 → s.ts ≠ 0 → ∃ tc ≤ s.now, s.ts = clk tc ∧ ∀ t0, s.sent = some t0 → s.changed = true → t0 ≤ tc
  late : ∀ t0, s.sent = some t0 → s.changed = true → s.flag = 2 → t0 + 1000 < s.now
  past : ∀ t0, s.sent = some t0 → t0 ≤ s.now
  full : ∀ o, s.inst = some o → o.require = 0 ∨ o.require = d.used

theorem kept_init (d : Dev) : Kept d {} :=
  ⟨by decide, fun h => Bool.noConfusion h, fun h => absurd h (by decide), fun _ h => (nomatch h),
   fun _ h => (nomatch h), fun _ h => (nomatch h)⟩

theorem fill_some (d : Dev) (require : Nat) (c : Cfg) :
    ∃ r, fillMsg d require c = some r ∧ r.fields = (if require ≠ 0 then require else d.used) := by
  obtain ⟨m, h1, _, h3, _⟩ := report_complete d require c
  exact ⟨m, h1, h3⟩

theorem enter_require {d : Dev} {flag ready : Bool} {m : Msg} {o : Inst} (hm : m.avail = d.used)
    (ho : o.require = 0 ∨ o.require = d.used) :
    ((enter d flag ready m o).2.require = 0 ∨ (enter d flag ready m o).2.require = d.used) := by
  unfold enter
  dsimp only
  split
  · exact ho
  · cases m.last <;> cases flag <;> cases ready <;> simp [hm, ho]

theorem process_require {d : Dev} {flag ready : Bool} {m : Msg} {o o' : Inst} {c c' : Cfg}
    (h : process d flag ready m o c = some (o', c')) :
    o'.require = (enter d flag ready m o).2.require ∧ o'.endFlag = m.last := by
  have he : (enter d flag ready m o).2.endFlag = m.last := by
    unfold enter
    dsimp only
    split
    · rfl
    · cases m.last <;> cases flag <;> cases ready <;> simp
  unfold process at h
  generalize enter d flag ready m o = e at *
  obtain ⟨go, o1⟩ := e
  dsimp only at *
  split at h
  · split at h
    · simp only [Option.some.injEq, Prod.mk.injEq] at h
      rw [← h.1]
      exact ⟨rfl, he⟩
    · split at h
      · simp only [Option.some.injEq, Prod.mk.injEq] at h
        rw [← h.1]
        exact ⟨rfl, he⟩
      · split at h
        · cases h
        · simp only [Option.some.injEq, Prod.mk.injEq] at h
          rw [← h.1]
          exact ⟨rfl, he⟩
        · simp only [Option.some.injEq, Prod.mk.injEq] at h
          rw [← h.1]
          exact ⟨rfl, he⟩
  · simp only [Option.some.injEq, Prod.mk.injEq] at h
    rw [← h.1]
    exact ⟨rfl, he⟩

/-- A complete message leaves nothing unsent. -/
theorem kept_note {d : Dev} {m : Msg} {s : S} (h : Kept d s) (hm : m.fields = d.used) :
    Kept d (note d m s) := by
  unfold note
  rw [if_pos hm]
  refine ⟨h.flag, fun h => Bool.noConfusion h, fun h1 h2 => ?_, fun _ _ h => Bool.noConfusion h, fun t0 h => ?_, h.full⟩
  · obtain ⟨tc, a, b, _⟩ := h.time h1 h2
    exact ⟨tc, a, b, fun _ _ h => Bool.noConfusion h⟩
  · injection h with h
    exact Nat.le_of_eq h.symm

theorem kept_step {d : Dev} {s s' : S} {op : Op} {out : List Out} (hk : Kept d s)
    (hp : match op with
      | .message m => Received m ∧ m.avail = d.used
      | .result => ∃ t, s.sent = some t ∧ s.now ≤ t + 1000
      | _ => True)
    (h : step d s op = some (s', out)) : Kept d s' := by
  cases op with
  | wait ms =>
    simp only [step, Option.some.injEq, Prod.mk.injEq] at h
    rw [← h.1]
    refine ⟨hk.flag, hk.marked, fun h1 h2 => ?_, fun t0 h1 h2 h3 => ?_, fun t0 h1 => ?_, hk.full⟩
    · obtain ⟨tc, a, b, c⟩ := hk.time h1 h2
      exact ⟨tc, Nat.le_trans a (Nat.le_add_right _ _), b, c⟩
    · exact Nat.lt_of_lt_of_le (hk.late t0 h1 h2 h3) (Nat.le_add_right _ _)
    · exact Nat.le_trans (hk.past t0 h1) (Nat.le_add_right _ _)
  | change c =>
    simp only [step, Option.some.injEq, Prod.mk.injEq] at h
    rw [← h.1]
    refine ⟨(show 1 ≤ 2 by decide), fun _ => by simp, fun _ _ => ⟨s.now, Nat.le_refl _, rfl, fun t0 h1 _ => hk.past t0 h1⟩,
      fun _ _ _ h3 => absurd h3 (show ¬ 1 = 2 by decide), hk.past, hk.full⟩
  | connected =>
    simp only [step, Option.some.injEq, Prod.mk.injEq] at h
    rw [← h.1]
    refine ⟨hk.flag, hk.marked, fun h1 h2 => ?_, fun _ h => (nomatch h), fun _ h => (nomatch h),
      fun _ h => (nomatch h)⟩
    obtain ⟨tc, a, b, _⟩ := hk.time h1 h2
    exact ⟨tc, a, b, fun _ h => (nomatch h)⟩
  | restart =>
    simp only [step, Option.some.injEq, Prod.mk.injEq] at h
    rw [← h.1]
    refine ⟨?_, fun h1 => ?_, fun h1 h2 => absurd rfl h2, fun _ h => (nomatch h), fun _ h => (nomatch h),
      fun _ h => (nomatch h)⟩
    · show (if s.flag = 0 then 0 else 2) ≤ 2
      split <;> omega
    · have := hk.marked h1
      show (if s.flag = 0 then 0 else 2) ≠ 0
      rw [if_neg this]
      decide
  | result =>
    simp only [step, Option.some.injEq, Prod.mk.injEq] at h
    rw [← h.1]
    obtain ⟨t, ht, hle⟩ := hp
    unfold answered
    cases hi : s.inst with
    | none => exact hk
    | some o =>
      dsimp only
      have hfresh : s.flag = 2 → s.changed = false := by
        intro h2
        cases hc : s.changed with
        | false => rfl
        | true =>
          have := hk.late t ht hc h2
          omega
      by_cases h2 : s.flag = 2
      · rw [if_pos h2]
        refine ⟨(show 0 ≤ 2 by decide), fun hc => ?_, fun h => absurd h (show ¬ 0 = 1 by decide), fun _ h => (nomatch h),
          fun _ h => (nomatch h), fun _ h => (nomatch h)⟩
        have hc : s.changed = true := hc
        rw [hfresh h2] at hc
        cases hc
      · rw [if_neg h2]
        refine ⟨hk.flag, hk.marked, fun h1 h3 => ?_, fun _ h => (nomatch h), fun _ h => (nomatch h),
          fun _ h => (nomatch h)⟩
        obtain ⟨tc, a, b, _⟩ := hk.time h1 h3
        exact ⟨tc, a, b, fun _ h => (nomatch h)⟩
  | pass =>
    have hpr : Kept d (promote s) := by
      unfold promote
      by_cases hts : s.ts ≠ 0
      · rw [if_pos hts]
        by_cases hsi : since (clk s.now) s.ts > 1000
        · rw [if_pos hsi]
          by_cases h1 : s.flag = 1
          · rw [if_pos h1]
            refine ⟨(show 2 ≤ 2 by decide), fun _ => by simp, fun h => absurd h (show ¬ 2 = 1 by decide), fun t0 a b _ => ?_, hk.past, hk.full⟩
            obtain ⟨tc, x, y, z⟩ := hk.time h1 hts
            have hz := z t0 a b
            rw [y] at hsi
            have := since_clk_le s.now tc x
            show t0 + 1000 < s.now
            omega
          · rw [if_neg h1]
            exact ⟨hk.flag, hk.marked, fun h => absurd h h1, hk.late, hk.past, hk.full⟩
        · rw [if_neg hsi]
          exact hk
      · rw [if_neg hts]
        exact hk
    simp only [step, Option.some.injEq] at h
    have hs' := congrArg (fun p => p.1) h
    dsimp only at hs'
    rw [← hs']
    generalize promote s = s at hpr
    unfold offer
    split
    · obtain ⟨r, hr, hf⟩ := fill_some d 0 s.cfg
      rw [hr]
      dsimp only
      apply kept_note _ hf
      exact ⟨hpr.flag, hpr.marked, hpr.time, hpr.late, hpr.past, fun o h => by injection h with h; rw [← h]; exact .inl rfl⟩
    · exact hpr
  | message m =>
    simp only [step, handle] at h
    cases hpc : process d (s.flag ≠ 0) (s.flag = 2) m (s.inst.getD { first := !s.recvd }) s.cfg with
    | none => rw [hpc] at h; cases h
    | some oc =>
      obtain ⟨o, c⟩ := oc
      rw [hpc] at h
      dsimp only at h
      have hreq : o.require = 0 ∨ o.require = d.used := by
        rw [(process_require hpc).1]
        apply enter_require hp.2
        cases hi : s.inst with
        | none => exact .inl rfl
        | some o1 => exact hk.full o1 hi
      have hk1 : Kept d { s with inst := some o, cfg := c } :=
        ⟨hk.flag, hk.marked, hk.time, hk.late, hk.past, fun o' h => by injection h with h; rw [← h]; exact hreq⟩
      split at h
      · split at h
        · rename_i hr0
          obtain ⟨r, hr, hf⟩ := fill_some d o.require c
          rw [hr] at h
          simp only [Option.some.injEq, Prod.mk.injEq] at h
          rw [← h.1]
          apply kept_note hk1
          rw [hf, if_pos hr0]
          rcases hreq with hq | hq
          · exact absurd hq hr0
          · exact hq
        · simp only [Option.some.injEq, Prod.mk.injEq] at h
          rw [← h.1]
          exact ⟨hk.flag, hk.marked, hk.time, hk.late, hk.past, fun _ h => (nomatch h)⟩
      · simp only [Option.some.injEq, Prod.mk.injEq] at h
        rw [← h.1]
        exact hk1

theorem kept_run {d : Dev} : ∀ {ops : List Op} {s s' : S} {out : List Out}, Kept d s → Prompt d ops s →
    run d ops s = some (s', out) → Kept d s' := by
  intro ops
  induction ops with
  | nil =>
    intro s s' out hk _ h
    simp only [run, Option.some.injEq, Prod.mk.injEq] at h
    rw [← h.1]
    exact hk
  | cons op ops ih =>
    intro s s' out hk hp h
    rw [run] at h
    cases hst : step d s op with
    | none => rw [hst] at h; cases h
    | some r =>
      obtain ⟨s1, o1⟩ := r
      rw [hst] at h
      dsimp only at h
      rw [Option.map_eq_some_iff] at h
      obtain ⟨⟨s2, o2⟩, h1, h2⟩ := h
      simp only [Prod.mk.injEq] at h2
      rw [← h2.1]
      exact ih (kept_step hk hp.1 hst) (hp.2 s1 o1 hst) h1

/-- **C58, a local change is not lost (partial: the server answers within a second and agrees on the fields
of the device).** -/
theorem never_lost_partial {d : Dev} {ops : List Op} {s : S} {out : List Out} (hp : Prompt d ops {})
    (h : run d ops {} = some (s, out)) (hc : s.changed = true) : s.flag ≠ 0 :=
  (kept_run (kept_init d) hp h).marked hc

/-- A message without fields. -/
def empty (avail : Nat) : Msg := { data := List.replicate 512 0, avail := avail }

theorem empty_received (avail : Nat) : Received (empty avail) :=
  ⟨List.length_replicate, Nat.zero_le _⟩

/-- A change while an earlier one is under way, and an answer that takes more than a second. -/
def slowAnswer : List Op :=
  [.connected, .message (empty 4), .wait 5, .change { volume := some 10 }, .wait 1001, .pass,
    .change { volume := some 20 }, .wait 1001, .pass, .result]

/-- C58 fails: the second change is forgotten. -/
theorem slow_answer_violation : ¬ NeverLost := by
  intro h
  have hr : (run ⟨4, 0⟩ slowAnswer {}).map (fun r => (r.1.changed, r.1.flag)) = some (true, 0) := by decide +kernel
  rw [Option.map_eq_some_iff] at hr
  obtain ⟨⟨s, out⟩, h1, h2⟩ := hr
  simp only [Prod.mk.injEq] at h2
  refine h ⟨4, 0⟩ slowAnswer s out (by decide) (by decide) ?_ h1 h2.1 h2.2
  intro m hm
  simp only [slowAnswer, List.mem_cons, Op.message.injEq, reduceCtorEq, List.not_mem_nil, or_false, false_or] at hm
  rw [hm]
  exact empty_received 4

/-- C58 fails even with prompt answers: the answer to the exchange about unequal fields (which carries only
those) is taken for the answer to the local change. -/
theorem field_exchange_violation :
    (run ⟨4, 0⟩ [.wait 1, .change { volume := some 10 }, .wait 999, .connected, .message (empty 0x24),
      .wait 500, .pass, .result] {}).map (fun r => (r.1.changed, r.1.flag)) = some (true, 0) := by decide +kernel

/-- A server that keeps the assumptions, and a change that arrives. -/
example : (run ⟨4, 0⟩ [.connected, .message (empty 4), .wait 5, .change { volume := some 10 }, .wait 1001, .pass,
    .wait 300, .result] {}).map (fun r => (r.1.changed, r.1.flag, r.1.inst)) = some (false, 0, none) := by
  decide +kernel

/-! ## A local change is sent -/

/-- Time passes and the program runs. -/
inductive Quiet : Op → Prop where
  | wait (ms : Nat) : Quiet (.wait ms)
  | pass : Quiet .pass

/-- The time of the waits. -/
def total : List Op → Nat
  | [] => 0
  | .wait ms :: ops => ms + total ops
  | _ :: ops => total ops

/-- The output contains the complete configuration `c` of the device. -/
def Tells (d : Dev) (c : Cfg) (out : List Out) : Prop :=
  ∃ m, .config m ∈ out ∧ m.fields = d.used ∧ ∀ f, m.has f → m.bytes f = fill d.avail f c

theorem quiet_waits {d : Dev} {tc : Nat} (hts : clk tc ≠ 0) : ∀ {ops : List Op} {s : S},
    (∀ op ∈ ops, Quiet op) → s.registered = true → s.recvd = true → s.inst = none → s.flag = 1 →
    s.ts = clk tc → tc ≤ s.now → s.now + total ops < tc + 2 ^ 32 → tc + 1000 < s.now + total ops →
    ∃ s' out, run d (ops ++ [.pass]) s = some (s', out) ∧ Tells d s.cfg out := by
  intro ops
  have now : ∀ (ops : List Op) (s : S), (∀ op ∈ ops, Quiet op) → s.registered = true → s.recvd = true →
      s.inst = none → s.flag = 1 → s.ts = clk tc → tc ≤ s.now → s.now < tc + 2 ^ 32 → tc + 1000 < s.now →
      ∃ s' out, run d (.pass :: ops) s = some (s', out) ∧ Tells d s.cfg out := by
    intro ops s hq h1 h2 h3 h4 h5 h6 h7 h8
    have hp : promote s = { s with flag := 2, ts := 0 } := by
      unfold promote
      rw [if_pos (by rw [h5]; exact hts), h5, since_clk_eq s.now tc h6 (by omega), if_pos (by omega), if_pos h4]
    obtain ⟨m, r1, r2, r3, r4, r5, r6⟩ := report_complete d 0 s.cfg
    have ho : offer d (promote s) = (note d m { s with flag := 2, ts := 0, inst := some {} }, [.config m]) := by
      rw [hp]
      unfold offer
      rw [if_pos ⟨h1, h2, rfl, h3⟩]
      dsimp only
      rw [r1]
    have hquiet : ∀ (ops : List Op) (s : S), (∀ op ∈ ops, Quiet op) → ∃ s' out, run d ops s = some (s', out) := by
      intro ops
      induction ops with
      | nil => intro s _; exact ⟨s, [], rfl⟩
      | cons op ops ih =>
        intro s hq
        have := hq op List.mem_cons_self
        have hst : ∃ r, step d s op = some r := by
          cases this with
          | wait ms => exact ⟨_, rfl⟩
          | pass => exact ⟨_, rfl⟩
        obtain ⟨⟨s1, o1⟩, hst⟩ := hst
        obtain ⟨s2, o2, h2⟩ := ih s1 (fun op ho => hq op (List.mem_cons_of_mem _ ho))
        exact ⟨s2, o1 ++ o2, by rw [run, hst]; dsimp only; rw [h2]; rfl⟩
    obtain ⟨s2, o2, hrest⟩ := hquiet ops (note d m { s with flag := 2, ts := 0, inst := some {} }) hq
    refine ⟨s2, .config m :: o2, ?_, m, List.mem_cons_self, r3, r6⟩
    rw [run, step, ho]
    dsimp only
    rw [hrest]
    rfl
  induction ops with
  | nil =>
    intro s hq h1 h2 h3 h4 h5 h6 h7 h8
    simp only [total, Nat.add_zero] at h7 h8
    exact now [] s (fun _ h => (nomatch h)) h1 h2 h3 h4 h5 h6 h7 h8
  | cons op ops ih =>
    intro s hq h1 h2 h3 h4 h5 h6 h7 h8
    have hq' := fun op ho => hq op (List.mem_cons_of_mem _ ho)
    cases hq op List.mem_cons_self with
    | wait ms =>
      simp only [total] at h7 h8
      obtain ⟨s', out, hr, ht⟩ := ih (s := { s with now := s.now + ms }) hq' h1 h2 h3 h4 h5
        (Nat.le_trans h6 (Nat.le_add_right _ _)) (by show s.now + ms + _ < _; omega) (by show _ < s.now + ms + _; omega)
      refine ⟨s', out, ?_, ht⟩
      rw [List.cons_append, run]
      simp only [step]
      rw [hr]
      rfl
    | pass =>
      simp only [total] at h7 h8
      by_cases hlate : tc + 1000 < s.now
      · refine now (ops ++ [.pass]) s ?_ h1 h2 h3 h4 h5 h6 (by omega) hlate
        intro op ho
        rcases List.mem_append.1 ho with ho | ho
        · exact hq' op ho
        · rw [List.mem_singleton.1 ho]; exact .pass
      · have hp : promote s = s := by
          unfold promote
          rw [h5]
          rw [since_clk_eq s.now tc h6 (by omega), if_pos hts, if_neg (by omega)]
        have ho : offer d s = (s, []) := by
          unfold offer
          rw [if_neg]
          rintro ⟨_, _, hf, _⟩
          rw [h4] at hf
          cases hf
        obtain ⟨s', out, hr, ht⟩ := ih hq' h1 h2 h3 h4 h5 h6 h7 h8
        refine ⟨s', out, ?_, ht⟩
        rw [List.cons_append, run, step, hp, ho]
        dsimp only
        rw [hr]
        rfl

/-- **C58, a local change reaches the server.** On a registered device with no exchange open, once more than
a second has passed the next pass sends the complete new configuration. (The clock is not exactly 0 at the
change, and passes do not pause for 49 days.) -/
theorem change_sent {d : Dev} {s : S} {c : Cfg} {ops : List Op} (h1 : s.registered = true)
    (h2 : s.recvd = true) (h3 : s.inst = none) (hclk : clk s.now ≠ 0) (hq : ∀ op ∈ ops, Quiet op)
    (hlong : 1000 < total ops) (hshort : total ops < 2 ^ 32) :
    ∃ s' out, run d (.change c :: ops ++ [.pass]) s = some (s', out) ∧ Tells d c out := by
  obtain ⟨s', out, hr, ht⟩ := quiet_waits (d := d) hclk (ops := ops)
    (s := { s with cfg := c, flag := 1, ts := clk s.now, changed := true }) hq h1 h2 h3 rfl rfl
    (Nat.le_refl _) (by show s.now + _ < _; omega) (by show _ < s.now + _; omega)
  refine ⟨s', out, ?_, ht⟩
  rw [List.cons_append, run]
  simp only [step]
  rw [hr]
  rfl

/-- C58 fails when the clock reads 0 at the change: it is never sent, however long the device runs (with no
other change, restart or new connection). -/
theorem change_at_zero_violation {d : Dev} {s : S} {c : Cfg} (hclk : clk s.now = 0)
    (ops : List Op) (hq : ∀ op ∈ ops, Quiet op) :
    ∃ s', run d (.change c :: ops) s = some (s', []) ∧ s'.flag = 1 := by
  have key : ∀ (ops : List Op) (s : S), (∀ op ∈ ops, Quiet op) → s.flag = 1 → s.ts = 0 →
      ∃ s', run d ops s = some (s', []) ∧ s'.flag = 1 := by
    intro ops
    induction ops with
    | nil => intro s _ h1 _; exact ⟨s, rfl, h1⟩
    | cons op ops ih =>
      intro s hq h1 h2
      have hq' := fun op ho => hq op (List.mem_cons_of_mem _ ho)
      cases hq op List.mem_cons_self with
      | wait ms =>
        obtain ⟨s', a, b⟩ := ih { s with now := s.now + ms } hq' h1 h2
        exact ⟨s', by rw [run]; simp only [step]; rw [a]; rfl, b⟩
      | pass =>
        have hp : promote s = s := by
          unfold promote
          rw [if_neg (by simp [h2])]
        have ho : offer d s = (s, []) := by
          unfold offer
          rw [if_neg]
          rintro ⟨_, _, hf, _⟩
          rw [h1] at hf
          cases hf
        obtain ⟨s', a, b⟩ := ih s hq' h1 h2
        exact ⟨s', by rw [run, step, hp, ho]; dsimp only; rw [a]; rfl, b⟩
  obtain ⟨s', a, b⟩ := key ops { s with cfg := c, flag := 1, ts := clk s.now, changed := true } hq rfl hclk
  exact ⟨s', by rw [run]; simp only [step]; rw [a]; rfl, b⟩

/-! ## An accepted message of the server is taken -/

/-- The full claim: a consistent message answered with "true", with no local change waiting, is taken. -/
def AckTaken : Prop := ∀ d ops m s out s' out', (∀ m, .message m ∈ ops → Received m) → Received m →
  Consistent m → m.last = true → ¬ (m.has .delayType ∧ m.has .power) →
  run d ops {} = some (s, out) → s.flag = 0 → step d s (.message m) = some (s', out') →
  .answer 1 ∈ out' → ∀ f, m.has f → part f s'.cfg = part f (apply d.avail f (m.bytes f) s.cfg)

/-- **C58, (partial: no exchange is open).** -/
theorem ack_taken_partial {d : Dev} {m : Msg} {s s' : S} {out' : List Out} (hr : Received m)
    (hc : Consistent m) (hbug : ¬ (m.has .delayType ∧ m.has .power)) (hf : s.flag = 0) (hi : s.inst = none)
    (h : step d s (.message m) = some (s', out')) :
    ∀ f, m.has f → part f s'.cfg = part f (apply d.avail f (m.bytes f) s.cfg) := by
  simp only [step, handle] at h
  rw [hi, hf] at h
  obtain ⟨o, c, hp, ht⟩ := taken_partial (d := d) (ready := decide (0 = 2)) (o := { first := !s.recvd })
    (c := s.cfg) hr hc rfl hbug
  have e : (decide ((0 : Nat) ≠ 0)) = false := rfl
  rw [e, Option.getD_none, hp] at h
  dsimp only at h
  intro f hfm
  have hcfg : s'.cfg = c := by
    split at h
    · split at h
      · split at h
        · simp only [Option.some.injEq, Prod.mk.injEq] at h
          rw [← h.1]
          rfl
        · simp only [Option.some.injEq, Prod.mk.injEq] at h
          rw [← h.1]
          rfl
      · simp only [Option.some.injEq, Prod.mk.injEq] at h
        rw [← h.1]
    · simp only [Option.some.injEq, Prod.mk.injEq] at h
      rw [← h.1]
  rw [hcfg]
  exact (ht f).1 hfm

/-- C58 fails: while the device waits for the answer to its own message about unequal fields, a setting sent
by the server is answered with "true" and ignored. -/
theorem ignored_ack_violation : ¬ AckTaken := by
  intro h
  have hr : (run ⟨4, 0⟩ [.connected, .message (empty 0)] {}).map (fun r => r.1) =
      some { registered := true, inst := some { endFlag := true, code := 1, first := true, require := 4 }, sent := some 0 } := by
    decide +kernel
  rw [Option.map_eq_some_iff] at hr
  obtain ⟨⟨s, out⟩, h1, h2⟩ := hr
  dsimp only at h2
  subst h2
  have hs : (step ⟨4, 0⟩ { registered := true, inst := some { endFlag := true, code := 1, first := true, require := 4 }, sent := some 0 }
      (.message (mk 4 [50]))).map (fun r => (r.1.cfg, decide (.answer 1 ∈ r.2))) = some ({}, true) := by decide +kernel
  rw [Option.map_eq_some_iff] at hs
  obtain ⟨⟨s', out'⟩, h3, h4⟩ := hs
  simp only [Prod.mk.injEq, decide_eq_true_eq] at h4
  have := h ⟨4, 0⟩ [.connected, .message (empty 0)] (mk 4 [50]) _ out s' out' ?_ (by constructor <;> decide +kernel)
    ⟨by intro i h1 h2; revert i; decide +kernel, by decide +kernel⟩ rfl
    (by rintro ⟨h, _⟩; revert h; show ¬ Nat.testBit 4 7 = true; decide) h1 rfl h3 h4.2 .volume
    (show Nat.testBit 4 2 = true by decide)
  · rw [h4.1] at this
    revert this
    decide +kernel
  · intro m hm
    simp only [List.mem_cons, Op.message.injEq, reduceCtorEq, List.not_mem_nil, or_false, false_or] at hm
    rw [hm]
    exact empty_received 0

end Verif.DevCfg
