import Verif.Cycles.Model

/-!
# Configuration mode after power cycles: properties
-/

namespace Verif.Cycles

/-! ## Specification -/

/-- How long the device had power: too short for a single pass, at most the timeout, or long. -/
inductive Kind where
  | instant | short | long
deriving DecidableEq, Repr

/-- Short sessions since the last long one (the list begins with the oldest). -/
def shorts (l : List Kind) : Nat :=
  l.foldl (fun n k => match k with | .instant => n | .short => n + 1 | .long => 0) 0

/-- The kind of a session that starts at `t0`: passes come from 1 ms on; a short session has one, and none after the
timeout; a long one has a pass after the timeout (1 ms of tolerance) and the configuration is written after it. -/
def IsKind (p : Par) (t0 : Nat) (evs : List Ev) : Kind → Prop
  | .instant => ∀ t, .pass t ∉ evs
  | .short => (∃ t, .pass t ∈ evs) ∧ ∀ t, .pass t ∈ evs → 1 ≤ t ∧ t0 ≤ t ∧ t ≤ t0 + p.timeout
  | .long => ∃ t1 pre mid e post, evs = pre ++ .pass t1 :: mid ++ e :: post ∧ t0 + p.timeout + 1 < t1 ∧ t1 < t0 + 2 ^ 32 ∧
      (∀ t, .pass t ∈ pre → 1 ≤ t ∧ t0 ≤ t ∧ t ≤ t0 + p.timeout) ∧
      (e = .commit ∨ ∃ t2, e = .pass t2 ∧ t1 + 1000 < t2 ∧ t2 < t1 + 2 ^ 32)

/-! ## One session -/

/-- Before the timeout, the counting not done. -/
structure Young (d t0 : Nat) (s : St) : Prop where
  disk : s.disk = d
  mem : s.mem = d
  cur : s.cur = d
  ts : s.ts = max t0 1
  inc : s.inc = false
  en : s.enabled = true
  delay : s.delay = 0
  entered : s.entered = false

/-- Before the timeout, counted. -/
structure Counted (p : Par) (d t0 : Nat) (s : St) : Prop where
  disk : s.disk = min p.max (d + 1)
  mem : s.mem = min p.max (d + 1)
  ts : s.ts = max t0 1
  inc : s.inc = true
  en : s.enabled = true
  delay : s.delay = 0
  entered : s.entered = decide (p.max ≤ d)

theorem young_load (d t0 : Nat) (h : t0 < 2 ^ 32) : Young d t0 (load (clk t0) true d) := by
  have hc : clk t0 = t0 := Nat.mod_eq_of_lt h
  refine ⟨rfl, rfl, rfl, ?_, rfl, rfl, rfl, rfl⟩
  show (if clk t0 = 0 then 1 else clk t0) = _
  rw [hc]
  split <;> omega

theorem count_young {p : Par} {d t0 : Nat} {s : St} (h : Young d t0 s) (hd : d ≤ p.max) (hm : p.max + 1 < 2 ^ 32) (hp : p.onlyPower = false ∨ power = true) :
    Counted p d t0 (count p power s) := by
  have hmod : (d + 1) % 2 ^ 32 = d + 1 := Nat.mod_eq_of_lt (by omega)
  have hc : (s.inc || (p.onlyPower && !power)) = false := by
    rw [h.inc]
    rcases hp with q | q <;> simp [q]
  unfold count
  rw [hc, if_neg (by decide), h.cur, hmod]
  split
  · have : d = p.max := by omega
    refine ⟨?_, ?_, h.ts, rfl, h.en, h.delay, ?_⟩
    · show s.disk = _
      rw [h.disk]
      omega
    · show s.mem = _
      rw [h.mem]
      omega
    · show true = _
      simp [this]
  · refine ⟨?_, ?_, h.ts, rfl, h.en, h.delay, ?_⟩
    · show d + 1 = _
      omega
    · show d + 1 = _
      omega
    · show s.entered = _
      rw [h.entered]
      simp
      omega

theorem count_counted {p : Par} {power : Bool} {d t0 : Nat} {s : St} (h : Counted p d t0 s) : count p power s = s := by
  unfold count
  rw [h.inc]
  simp
  rw [← h.inc]

theorem commit_same {s : St} (h : s.mem = s.disk) : commit s = s := by
  obtain ⟨d, m, c, t, i, en, dl, dt, e⟩ := s
  have h : m = d := h
  subst h
  rfl

/-- Elapsed time, with the correction of a zero reading. -/
theorem since_ts {t t0 : Nat} (h0 : t0 < 2 ^ 32) (h1 : 1 ≤ t) (h2 : t0 ≤ t) (h3 : t < t0 + 2 ^ 32) :
    since (clk t) (max t0 1) = t - max t0 1 := by
  have : since (clk t) (clk (max t0 1)) = t - max t0 1 := by
    by_cases hz : t0 = 2 ^ 32 - 1
    · subst hz
      exact since_clk_eq _ _ (by omega) (by omega)
    · exact since_clk_eq _ _ (by omega) (by omega)
  rw [show clk (max t0 1) = max t0 1 from Nat.mod_eq_of_lt (by omega)] at this
  exact this

theorem saveIf_none {now : Nat} {s : St} (h : s.delay = 0) : saveIf now s = s := by
  unfold saveIf
  rw [if_neg (by rw [h]; simp)]

theorem iterate_young {p : Par} {power : Bool} {t d t0 : Nat} {s : St} (h : Young d t0 s) :
    step p power s (.pass t) = expire p (clk t) (count p power s) := by
  show iterate p power (clk t) (saveIf (clk t) s) = _
  rw [saveIf_none h.delay]
  unfold iterate
  rw [h.en, h.ts, if_neg]
  simp

theorem iterate_counted {p : Par} {power : Bool} {t d t0 : Nat} {s : St} (h : Counted p d t0 s) :
    step p power s (.pass t) = expire p (clk t) s := by
  show iterate p power (clk t) (saveIf (clk t) s) = _
  rw [saveIf_none h.delay]
  unfold iterate
  rw [count_counted h, h.en, h.ts, if_neg]
  simp

theorem expire_early {p : Par} {t d t0 : Nat} {s : St} (h : Counted p d t0 s) (h0 : t0 < 2 ^ 32) (hto : p.timeout < 2 ^ 31)
    (ht : 1 ≤ t ∧ t0 ≤ t ∧ t ≤ t0 + p.timeout) : expire p (clk t) s = s := by
  unfold expire
  rw [if_neg]
  rw [h.ts, since_ts h0 ht.1 ht.2.1 (by omega)]
  omega

/-- Before the timeout the device is in one of these states. -/
theorem early {p : Par} {power : Bool} {d t0 : Nat} (hd : d ≤ p.max) (hm : p.max + 1 < 2 ^ 32) (h0 : t0 < 2 ^ 32) (hto : p.timeout < 2 ^ 31)
    (hp : p.onlyPower = false ∨ power = true) (evs : List Ev) : ∀ (s : St), Young d t0 s ∨ Counted p d t0 s →
    (∀ t, .pass t ∈ evs → 1 ≤ t ∧ t0 ≤ t ∧ t ≤ t0 + p.timeout) →
    (Young d t0 (evs.foldl (step p power) s) ∧ Young d t0 s ∧ ∀ t, .pass t ∉ evs) ∨
      (Counted p d t0 (evs.foldl (step p power) s) ∧ (Counted p d t0 s ∨ ∃ t, .pass t ∈ evs)) := by
  induction evs with
  | nil =>
    intro s h _
    rcases h with h | h
    · exact .inl ⟨h, h, by simp⟩
    · exact .inr ⟨h, .inl h⟩
  | cons x evs ih =>
    intro s h ht
    rw [List.foldl_cons]
    have ht' : ∀ t, .pass t ∈ evs → 1 ≤ t ∧ t0 ≤ t ∧ t ≤ t0 + p.timeout := fun t hh => ht t (List.mem_cons_of_mem _ hh)
    cases x with
    | pass t =>
      have hc : Counted p d t0 (step p power s (.pass t)) := by
        have htt := ht t List.mem_cons_self
        rcases h with h | h
        · rw [iterate_young h, expire_early (count_young h hd hm hp) h0 hto htt]
          exact count_young h hd hm hp
        · rw [iterate_counted h, expire_early h h0 hto htt]
          exact h
      rcases ih _ (.inr hc) ht' with q | q
      · have := q.2.1.inc
        rw [hc.inc] at this
        cases this
      · exact .inr ⟨q.1, .inr ⟨t, List.mem_cons_self⟩⟩
    | commit =>
      rcases h with h | h
      · have hs : step p power s .commit = s := by
          have : s.mem = s.disk := h.mem.trans h.disk.symm
          exact commit_same this
        rw [hs]
        rcases ih s (.inl h) ht' with q | q
        · refine .inl ⟨q.1, h, ?_⟩
          intro t hh
          rcases List.mem_cons.mp hh with q2 | q2
          · cases q2
          · exact q.2.2 t q2
        · refine .inr ⟨q.1, ?_⟩
          rcases q.2 with q2 | ⟨t, q2⟩
          · exact .inl q2
          · exact .inr ⟨t, List.mem_cons_of_mem _ q2⟩
      · have hs : step p power s .commit = s := by
          have : s.mem = s.disk := h.mem.trans h.disk.symm
          exact commit_same this
        rw [hs]
        rcases ih s (.inr h) ht' with q | q
        · have := q.2.1.inc
          rw [h.inc] at this
          cases this
        · exact .inr ⟨q.1, .inl h⟩

/-- After the timeout: the counter in memory is zero, in the flash it will be. -/
structure Over (t1 : Nat) (s : St) : Prop where
  mem : s.mem = 0
  ts : s.ts = 0
  save : s.disk = 0 ∨ (s.delay = 1000 ∧ s.delayTs = clk t1)

theorem over_step {p : Par} {power : Bool} {t1 : Nat} {s : St} (e : Ev) (h : Over t1 s) : Over t1 (step p power s e) ∧
    (s.disk = 0 → (step p power s e).disk = 0) ∧ (step p power s e).entered = s.entered := by
  cases e with
  | commit => exact ⟨⟨h.mem, h.ts, .inl h.mem⟩, fun _ => h.mem, rfl⟩
  | pass t =>
    have hz : (saveIf (clk t) s).ts = 0 := by
      unfold saveIf
      split <;> exact h.ts
    have hit : step p power s (.pass t) = saveIf (clk t) s := by
      show iterate p power (clk t) (saveIf (clk t) s) = _
      unfold iterate
      rw [hz, if_pos (by simp)]
    rw [hit]
    unfold saveIf
    split
    · exact ⟨⟨h.mem, h.ts, .inl h.mem⟩, fun _ => h.mem, rfl⟩
    · exact ⟨h, id, rfl⟩

theorem over_fold {p : Par} {power : Bool} {t1 : Nat} (evs : List Ev) : ∀ (s : St), Over t1 s → Over t1 (evs.foldl (step p power) s) ∧
    (s.disk = 0 → (evs.foldl (step p power) s).disk = 0) ∧ (evs.foldl (step p power) s).entered = s.entered := by
  induction evs with
  | nil => intro s h; exact ⟨h, id, rfl⟩
  | cons e evs ih =>
    intro s h
    rw [List.foldl_cons]
    have h1 := over_step (p := p) (power := power) e h
    have h2 := ih _ h1.1
    exact ⟨h2.1, fun q => h2.2.1 (h1.2.1 q), h2.2.2.trans h1.2.2⟩

/-- The event that writes. -/
theorem over_written {p : Par} {power : Bool} {t1 : Nat} {s : St} {e : Ev} (h : Over t1 s)
    (he : e = .commit ∨ ∃ t2, e = .pass t2 ∧ t1 + 1000 < t2 ∧ t2 < t1 + 2 ^ 32) : (step p power s e).disk = 0 := by
  rcases he with rfl | ⟨t2, rfl, h1, h2⟩
  · exact h.mem
  · rcases h.save with q | ⟨q1, q2⟩
    · exact (over_step (.pass t2) h).2.1 q
    · have hz : (saveIf (clk t2) s).ts = 0 := by
        unfold saveIf
        split <;> exact h.ts
      have hit : step p power s (.pass t2) = saveIf (clk t2) s := by
        show iterate p power (clk t2) (saveIf (clk t2) s) = _
        unfold iterate
        rw [hz, if_pos (by simp)]
      rw [hit]
      unfold saveIf
      rw [if_pos]
      · exact h.mem
      · rw [q1, q2, since_clk_eq t2 t1 (by omega) (by omega)]
        omega

theorem expire_late {p : Par} {t1 d t0 : Nat} {s : St} (h : Counted p d t0 s) (h0 : t0 < 2 ^ 32) (ht : t0 + p.timeout + 1 < t1)
    (ht2 : t1 < t0 + 2 ^ 32) : Over t1 (expire p (clk t1) s) ∧ (expire p (clk t1) s).entered = s.entered := by
  have : since (clk t1) s.ts > p.timeout := by
    rw [h.ts, since_ts h0 (by omega) (by omega) (by omega)]
    omega
  unfold expire
  rw [if_pos this]
  unfold saveWith
  rw [if_pos h.delay]
  exact ⟨⟨rfl, rfl, .inr ⟨rfl, rfl⟩⟩, rfl⟩

/-- One session: what is stored afterwards, and whether the configuration mode was entered. -/
theorem session_kind (p : Par) (power : Bool) (d t0 : Nat) (evs : List Ev) (k : Kind) (hk : IsKind p t0 evs k) (hd : d ≤ p.max)
    (hm : p.max + 1 < 2 ^ 32) (h0 : t0 < 2 ^ 32) (hto : p.timeout < 2 ^ 31) (hp : p.onlyPower = false ∨ power = true) :
    (session p power true t0 d evs).disk = (match k with | .instant => d | .short => min p.max (d + 1) | .long => 0) ∧
    ((session p power true t0 d evs).entered = true ↔ k ≠ .instant ∧ p.max ≤ d) := by
  have hy := young_load d t0 h0
  unfold session
  cases k with
  | instant =>
    have hk : ∀ t, .pass t ∉ evs := hk
    rcases early hd hm h0 hto hp evs _ (.inl hy) (fun t ht => absurd ht (hk t)) with q | q
    · exact ⟨q.1.disk, by rw [q.1.entered]; simp⟩
    · rcases q.2 with q2 | ⟨t, q2⟩
      · have := q2.inc
        rw [hy.inc] at this
        cases this
      · exact absurd q2 (hk t)
  | short =>
    obtain ⟨⟨t, hk1⟩, hk2⟩ := hk
    rcases early hd hm h0 hto hp evs _ (.inl hy) hk2 with q | q
    · exact absurd hk1 (q.2.2 t)
    · exact ⟨q.1.disk, by rw [q.1.entered]; simp⟩
  | long =>
    obtain ⟨t1, pre, mid, e, post, rfl, h1, h2, h3, h4⟩ := hk
    rw [List.foldl_append, List.foldl_append, List.foldl_cons, List.foldl_cons]
    have ho : Over t1 (step p power (pre.foldl (step p power) (load (clk t0) true d)) (.pass t1)) ∧
        (step p power (pre.foldl (step p power) (load (clk t0) true d)) (.pass t1)).entered = decide (p.max ≤ d) := by
      rcases early hd hm h0 hto hp pre _ (.inl hy) h3 with q | q
      · rw [iterate_young q.1]
        have hc := count_young q.1 hd hm hp
        have := expire_late hc h0 h1 h2
        exact ⟨this.1, this.2.trans hc.entered⟩
      · rw [iterate_counted q.1]
        have := expire_late q.1 h0 h1 h2
        exact ⟨this.1, this.2.trans q.1.entered⟩
    generalize step p power (pre.foldl (step p power) (load (clk t0) true d)) (.pass t1) = s1 at ho
    have hmid := over_fold (p := p) (power := power) mid s1 ho.1
    generalize mid.foldl (step p power) s1 = s2 at hmid
    have hw := over_written (p := p) (power := power) hmid.1 h4
    have hov := over_step (p := p) (power := power) e hmid.1
    generalize step p power s2 e = s3 at hw hov
    have hpost := over_fold (p := p) (power := power) post s3 hov.1
    refine ⟨hpost.2.1 hw, ?_⟩
    rw [hpost.2.2, hov.2.2, hmid.2.2, ho.2]
    simp

/-! ## Histories of power cycles -/

/-- One session of a history. -/
structure Sess where
  power : Bool := true
  t0 : Nat := 0
  evs : List Ev := []
  kind : Kind := .short

/-- A session as it can be: starts within the first 49 days (of its own clock), is of its kind, counts. -/
def Sess.Ok (p : Par) (x : Sess) : Prop := x.t0 < 2 ^ 32 ∧ IsKind p x.t0 x.evs x.kind ∧ (p.onlyPower = false ∨ x.power = true)

/-- What is stored after a history that began with a new device. -/
def stored (p : Par) (l : List Sess) : Nat := l.foldl (fun d x => (session p x.power true x.t0 d x.evs).disk) 0

/-- The stored counter: short sessions since the last long one, at most the limit. -/
theorem stored_eq (p : Par) (hm : p.max + 1 < 2 ^ 32) (hto : p.timeout < 2 ^ 31) (l : List Sess) (hl : ∀ x ∈ l, x.Ok p) :
    stored p l = min p.max (shorts (l.map (·.kind))) := by
  suffices hs : ∀ (l : List Sess), (∀ x ∈ l, x.Ok p) → ∀ n, l.foldl (fun d x => (session p x.power true x.t0 d x.evs).disk) (min p.max n) =
      min p.max ((l.map (·.kind)).foldl (fun n k => match k with | .instant => n | .short => n + 1 | .long => 0) n) by
    have := hs l hl 0
    rw [Nat.min_zero] at this
    exact this
  intro l
  induction l with
  | nil => intro _ n; rfl
  | cons x l ih =>
    intro hl n
    obtain ⟨h0, hk, hp⟩ := hl x List.mem_cons_self
    rw [List.map_cons, List.foldl_cons, List.foldl_cons]
    have h := (session_kind p x.power (min p.max n) x.t0 x.evs x.kind hk (Nat.min_le_left _ _) hm h0 hto hp).1
    rw [h]
    have ih := ih (fun y hy => hl y (List.mem_cons_of_mem _ hy))
    cases x.kind with
    | instant => exact ih n
    | short =>
      have : min p.max (min p.max n + 1) = min p.max (n + 1) := by omega
      rw [this]
      exact ih (n + 1)
    | long =>
      have := ih 0
      rw [Nat.min_zero] at this
      exact this

/-- The configuration mode is entered exactly when the device was switched on and off `max` times before, each time for
a short time only, without a long time between. -/
theorem enters_iff (p : Par) (hm : p.max + 1 < 2 ^ 32) (hto : p.timeout < 2 ^ 31) (l : List Sess) (hl : ∀ x ∈ l, x.Ok p) (x : Sess)
    (hx : x.Ok p) (hpass : x.kind ≠ .instant) :
    (session p x.power true x.t0 (stored p l) x.evs).entered = true ↔ p.max ≤ shorts (l.map (·.kind)) := by
  obtain ⟨h0, hk, hp⟩ := hx
  rw [stored_eq p hm hto l hl]
  rw [(session_kind p x.power _ x.t0 x.evs x.kind hk (Nat.min_le_left _ _) hm h0 hto hp).2]
  constructor
  · rintro ⟨_, h⟩
    omega
  · intro h
    exact ⟨hpass, by omega⟩

/-- A short session of 2 s. -/
def shortOne : Sess := { t0 := 20, evs := [.pass 30, .pass 2000], kind := .short }
/-- A session of 10 s. -/
def longOne : Sess := { t0 := 20, evs := [.pass 30, .pass 6000, .pass 7001], kind := .long }

theorem shortOne_ok : shortOne.Ok {} := ⟨by decide, ⟨⟨30, by simp [shortOne]⟩, by
  intro t ht
  simp [shortOne] at ht
  rcases ht with rfl | rfl <;> simp [shortOne]⟩, .inl rfl⟩

theorem longOne_ok : longOne.Ok {} := ⟨by decide, ⟨6000, [.pass 30], [], .pass 7001, [], rfl, by decide, by decide, by
  intro t ht
  simp at ht
  subst ht
  decide, .inr ⟨7001, rfl, by decide, by decide⟩⟩, .inl rfl⟩

example : (session {} true true 20 (stored {} [longOne, shortOne, shortOne, shortOne]) shortOne.evs).entered = true := by
  rw [show (20 : Nat) = shortOne.t0 from rfl, show true = shortOne.power from rfl]
  refine (enters_iff {} (by decide) (by decide) _ ?_ shortOne shortOne_ok (by decide)).mpr (by decide)
  intro x hx
  simp at hx
  rcases hx with rfl | rfl
  · exact longOne_ok
  · exact shortOne_ok

example : (session {} true true 20 (stored {} [shortOne, shortOne, longOne, shortOne]) shortOne.evs).entered = false := by decide +kernel

/-- With the option, restarts that are not a loss of power neither count nor enter the configuration mode. -/
theorem not_power (p : Par) (h : p.onlyPower = true) (enabled : Bool) (t0 d : Nat) (evs : List Ev) :
    (session p false enabled t0 d evs).entered = false ∧ ((session p false enabled t0 d evs).disk = d ∨ (session p false enabled t0 d evs).disk = 0) := by
  unfold session
  suffices hs : ∀ s : St, s.entered = false → (s.disk = d ∨ s.disk = 0) → (s.mem = d ∨ s.mem = 0) →
      (evs.foldl (step p false) s).entered = false ∧ ((evs.foldl (step p false) s).disk = d ∨ (evs.foldl (step p false) s).disk = 0) from
    hs _ rfl (.inl rfl) (.inl rfl)
  induction evs with
  | nil => intro s h1 h2 _; exact ⟨h1, h2⟩
  | cons e evs ih =>
    intro s h1 h2 h3
    rw [List.foldl_cons]
    cases e with
    | commit => exact ih _ h1 h3 h3
    | pass t =>
      have hsv : (saveIf (clk t) s).entered = false ∧ ((saveIf (clk t) s).disk = d ∨ (saveIf (clk t) s).disk = 0) ∧
          ((saveIf (clk t) s).mem = d ∨ (saveIf (clk t) s).mem = 0) := by
        unfold saveIf
        split
        · exact ⟨h1, h3, h3⟩
        · exact ⟨h1, h2, h3⟩
      rw [show step p false s (.pass t) = iterate p false (clk t) (saveIf (clk t) s) from rfl]
      generalize saveIf (clk t) s = s1 at hsv
      suffices hq : (iterate p false (clk t) s1).entered = false ∧ ((iterate p false (clk t) s1).disk = d ∨ (iterate p false (clk t) s1).disk = 0) ∧
          ((iterate p false (clk t) s1).mem = d ∨ (iterate p false (clk t) s1).mem = 0) from ih _ hq.1 hq.2.1 hq.2.2
      unfold iterate
      split
      · exact hsv
      · have hc : count p false s1 = { s1 with inc := true } := by
          unfold count
          rw [if_pos (by simp [h])]
        rw [hc]
        unfold expire
        split
        · unfold saveWith
          split
          · exact ⟨hsv.1, hsv.2.1, .inr rfl⟩
          · exact ⟨hsv.1, hsv.2.1, .inr rfl⟩
        · exact hsv

/-- A disabled element does nothing. -/
theorem disabled (p : Par) (power : Bool) (t0 d : Nat) (evs : List Ev) :
    (session p power false t0 d evs).entered = false ∧ (session p power false t0 d evs).disk = d := by
  unfold session
  suffices hs : ∀ s : St, s.entered = false → s.disk = d → s.mem = d → s.enabled = false →
      (evs.foldl (step p power) s).entered = false ∧ (evs.foldl (step p power) s).disk = d from hs _ rfl rfl rfl rfl
  induction evs with
  | nil => intro s h1 h2 _ _; exact ⟨h1, h2⟩
  | cons e evs ih =>
    intro s h1 h2 h3 h4
    rw [List.foldl_cons]
    cases e with
    | commit => exact ih _ h1 h3 h3 h4
    | pass t =>
      have hit : step p power s (.pass t) = saveIf (clk t) s := by
        show iterate p power (clk t) (saveIf (clk t) s) = _
        unfold iterate
        rw [if_pos]
        have : (saveIf (clk t) s).enabled = false := by
          unfold saveIf
          split <;> exact h4
        simp [this]
      rw [hit]
      unfold saveIf
      split
      · exact ih _ h1 h3 h3 h4
      · exact ih _ h1 h2 h3 h4

/-! ## Findings -/

/-- A device that had power for longer than the timeout counts anew. -/
def LongResets : Prop :=
  ∀ (p : Par) (t0 d t1 : Nat) (pre post : List Ev), 1 ≤ t0 → d ≤ p.max → t0 + p.timeout + 1 < t1 → t1 < t0 + 2 ^ 32 →
    (∀ t, .pass t ∈ pre → t0 ≤ t ∧ t ≤ t1) → (session p true true t0 d (pre ++ .pass t1 :: post)).disk = 0

/-- It is stored only a second later: the power lost in this second, the session still counts as a short one. -/
theorem unlucky_violation : ¬ LongResets := by
  intro h
  have := h {} 20 2 5100 [.pass 30] [.pass 6000] (by decide) (by decide) (by decide) (by decide) (by
    intro t ht
    simp at ht
    subst ht
    decide)
  clear h
  revert this
  decide +kernel

/-- A short session counts. -/
def ShortCounts : Prop :=
  ∀ (p : Par) (t0 d t : Nat), d < p.max → p.max + 1 < 2 ^ 32 → t0 ≤ t → t ≤ t0 + p.timeout → t0 < 2 ^ 32 →
    (session p true true t0 d [.pass t, .commit]).disk = d + 1

/-- Not when the first pass is at clock reading 0: the time stamp was set to 1. -/
theorem zero_violation : ¬ ShortCounts := by
  intro h
  have := h {} 0 2 0 (by decide) (by decide) (by decide) (by decide) (by decide)
  clear h
  revert this
  decide +kernel

/-- Restarts by the device itself are not power cycles. -/
def OnlyPowerCounts : Prop :=
  ∀ (p : Par) (t0 d : Nat) (evs : List Ev), d ≤ p.max → (session p false true t0 d evs).entered = false

/-- Without the option they count: a device that restarts itself (an update, a button) every few seconds ends up in the
configuration mode. -/
theorem software_restart_violation : ¬ OnlyPowerCounts := by
  intro h
  have := h {} 20 3 [.pass 30] (by decide)
  clear h
  revert this
  decide +kernel

end Verif.Cycles
