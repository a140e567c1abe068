import Verif.Common.Clock

/-!
# Settings reach the flash: the delayed save of the configuration

Models `Config::saveWithDelay` and `Config::saveIfNeeded` (/repo/src/supla/storage/config.cpp, K, lines 383-397) as the
main loop uses them (/repo/src/SuplaDevice.cpp, D, lines 384-387), `commit` at a soft restart (D lines 780-790) and the loss
of power.  The configuration is a map from keys to values; the copy in memory and the copy in flash are separate, as in
the key-value configuration (`Verif.KeyValue`).  `commit` is taken to succeed.
-/

namespace Verif.Save

/-- The configuration and the pending save: `saveDelayMs`, `saveDelayTimestamp` (config.h lines 155-157); `now` is the true time
since boot in milliseconds, `writes` counts the writes of the flash. -/
structure St where
  now : Nat := 0
  mem : Nat → Nat := fun _ => 0
  disk : Nat → Nat := fun _ => 0
  delay : Nat := 0
  ts : Nat := 0
  writes : Nat := 0

/-- What happens: time passes, a setting is changed with a request to save it, a pass of the main loop, another part of
the device commits (or the device restarts itself), power is lost. -/
inductive Op
  | wait (d : Nat)
  | change (k v d : Nat)
  | pass
  | commit
  | power
deriving DecidableEq, Repr

/-- `saveWithDelay`, K lines 383-388; the argument is a `uint32_t`. -/
def saveWith (d : Nat) (s : St) : St :=
  if s.delay = 0 then { s with delay := d % 2 ^ 32, ts := clk s.now } else s

/-- `commit()`. -/
def commit (s : St) : St := { s with disk := s.mem, writes := s.writes + 1 }

/-- The first part of `saveIfNeeded`, K lines 390-397. -/
def saveIf (s : St) : St :=
  if s.delay ≠ 0 ∧ since (clk s.now) s.ts > s.delay then { commit s with delay := 0, ts := 0 } else s

/-- One event.  After a loss of power the memory is loaded from the flash and the clock starts again. -/
def step (s : St) : Op → St
  | .wait d => { s with now := s.now + d }
  | .change k v d => saveWith d { s with mem := fun x => if x = k then v else s.mem x }
  | .pass => saveIf s
  | .commit => commit s
  | .power => { s with now := 0, mem := s.disk, delay := 0, ts := 0 }

/-- A history. -/
def run (s : St) (ops : List Op) : St := ops.foldl step s

/-! ## Specification -/

/-- The main loop runs at least every `g` milliseconds; `p` milliseconds have passed since it last did. -/
def Paced (g : Nat) : Nat → List Op → Prop
  | p, [] => p ≤ g
  | p, .wait d :: l => p + d ≤ g ∧ Paced g (p + d) l
  | _, .pass :: l => Paced g 0 l
  | _, .power :: l => Paced g 0 l
  | p, _ :: l => Paced g p l

/-- Every request asks for a delay between 1 and `D` milliseconds. -/
def Asks (D : Nat) : Op → Prop
  | .change _ _ d => 1 ≤ d ∧ d ≤ D
  | _ => True

/-- The event does not touch the setting `k`, and power is not lost. -/
def Leaves (k : Nat) : Op → Prop
  | .change k' _ _ => k' ≠ k
  | .power => False
  | _ => True

/-- The time that passes. -/
def elapsed : List Op → Nat
  | [] => 0
  | .wait d :: l => d + elapsed l
  | _ :: l => elapsed l

/-! ## Proofs -/

/-- The pending save is not late. -/
def Timely (D p : Nat) (s : St) (r : Nat) : Prop :=
  s.delay ≠ 0 → s.ts = clk r ∧ r ≤ s.now ∧ s.delay ≤ D ∧ s.now ≤ r + D + p

/-- How the time since the last pass goes on. -/
def gap (p : Nat) : Op → Nat
  | .wait d => p + d
  | .pass => 0
  | .power => 0
  | _ => p

theorem paced_cons {g p : Nat} {o : Op} {l : List Op} (h : Paced g p (o :: l)) : Paced g (gap p o) l := by
  cases o with
  | wait d => exact h.2
  | _ => exact h

theorem paced_gap {g p : Nat} {o : Op} {l : List Op} (hp : p ≤ g) (h : Paced g p (o :: l)) : gap p o ≤ g := by
  cases o with
  | wait d => exact h.1
  | change k v d => exact hp
  | pass => exact Nat.zero_le _
  | commit => exact hp
  | power => exact Nat.zero_le _

/-- What holds of the setting `k` changed to `v` at the time `u`. -/
structure Held (D p k v u : Nat) (s : St) (r : Nat) : Prop where
  timely : Timely D p s r
  mem : s.mem k = v
  disk : s.disk k = v ∨ (s.delay ≠ 0 ∧ r ≤ u)

theorem timely_step {D g p : Nat} (hD : D + g < 2 ^ 32) {s : St} {r : Nat} (h : Timely D p s r) (o : Op) (ho : Asks D o)
    (hg : p ≤ g) : ∃ r', Timely D (gap p o) (step s o) r' := by
  cases o with
  | wait d =>
    refine ⟨r, fun hd => ?_⟩
    obtain ⟨a, b, c, e⟩ := h hd
    refine ⟨a, ?_, c, ?_⟩
    · show r ≤ s.now + d; omega
    · show s.now + d ≤ r + D + (p + d); omega
  | change k v d =>
    by_cases hz : s.delay = 0
    · refine ⟨s.now, fun _ => ?_⟩
      unfold step saveWith
      dsimp only
      rw [if_pos hz]
      refine ⟨rfl, Nat.le_refl _, ?_, ?_⟩
      · exact Nat.le_trans (Nat.mod_le _ _) ho.2
      · show s.now ≤ s.now + D + p; omega
    · refine ⟨r, fun _ => ?_⟩
      unfold step saveWith
      dsimp only
      rw [if_neg hz]
      exact h hz
  | pass =>
    refine ⟨r, ?_⟩
    unfold step saveIf
    dsimp only
    split
    · intro hd; exact absurd rfl hd
    · rename_i hn
      intro hd
      obtain ⟨a, b, c, e⟩ := h hd
      have hs : since (clk s.now) s.ts = s.now - r := by rw [a]; exact since_clk_eq _ _ b (by omega)
      refine ⟨a, b, c, ?_⟩
      have : ¬ (s.now - r > s.delay) := fun w => hn ⟨hd, by rw [hs]; exact w⟩
      show s.now ≤ r + D + 0
      omega
  | commit => exact ⟨r, h⟩
  | power => exact ⟨r, fun hd => absurd rfl hd⟩

theorem held_step {D g p k v u : Nat} (hD : D + g < 2 ^ 32) {s : St} {r : Nat} (h : Held D p k v u s r) (o : Op) (ho : Asks D o)
    (hl : Leaves k o) (hg : p ≤ g) : ∃ r', Held D (gap p o) k v u (step s o) r' := by
  obtain ⟨ht, hm, hd⟩ := h
  cases o with
  | wait d =>
    refine ⟨r, fun hd => ?_, hm, hd⟩
    obtain ⟨a, b, c, e⟩ := ht hd
    refine ⟨a, ?_, c, ?_⟩
    · show r ≤ s.now + d; omega
    · show s.now + d ≤ r + D + (p + d); omega
  | change k' v' d =>
    have hk : (if k = k' then v' else s.mem k) = v := by rw [if_neg (fun e => hl e.symm)]; exact hm
    by_cases hz : s.delay = 0
    · obtain ⟨r', ht'⟩ := timely_step hD ht (.change k' v' d) ho hg
      refine ⟨r', ht', ?_, ?_⟩
      · unfold step saveWith
        dsimp only
        rw [if_pos hz]
        exact hk
      · left
        rcases hd with hd | hd
        · unfold step saveWith
          dsimp only
          rw [if_pos hz]
          exact hd
        · exact absurd hz hd.1
    · refine ⟨r, fun _ => ?_, ?_, ?_⟩
      · unfold step saveWith
        dsimp only
        rw [if_neg hz]
        exact ht hz
      · unfold step saveWith
        dsimp only
        rw [if_neg hz]
        exact hk
      · unfold step saveWith
        dsimp only
        rw [if_neg hz]
        exact hd
  | pass =>
    unfold step saveIf
    dsimp only
    split
    · exact ⟨r, fun hd => absurd rfl hd, hm, .inl hm⟩
    · rename_i hn
      refine ⟨r, fun hd => ?_, hm, hd⟩
      obtain ⟨a, b, c, e⟩ := ht hd
      have hs : since (clk s.now) s.ts = s.now - r := by rw [a]; exact since_clk_eq _ _ b (by omega)
      refine ⟨a, b, c, ?_⟩
      have : ¬ (s.now - r > s.delay) := fun w => hn ⟨hd, by rw [hs]; exact w⟩
      show s.now ≤ r + D + 0
      omega
  | commit => exact ⟨r, ht, hm, .inl hm⟩
  | power => exact absurd hl id

theorem now_step (s : St) (o : Op) (l : List Op) (h : ∀ x ∈ o :: l, ∃ k, Leaves k x) :
    (step s o).now + elapsed l = s.now + elapsed (o :: l) := by
  cases o with
  | wait d => show s.now + d + elapsed l = s.now + (d + elapsed l); omega
  | change k v d =>
    show (saveWith d _).now + _ = s.now + elapsed l
    unfold saveWith
    split <;> rfl
  | pass =>
    show (saveIf s).now + _ = s.now + elapsed l
    unfold saveIf
    split <;> rfl
  | commit => rfl
  | power => obtain ⟨k, hk⟩ := h .power (List.mem_cons_self ..); exact absurd hk id

theorem held_run {D g k v u : Nat} (hD : D + g < 2 ^ 32) (l : List Op) : ∀ (s : St) (p r : Nat), Held D p k v u s r →
    p ≤ g → Paced g p l → (∀ o ∈ l, Asks D o) → (∀ o ∈ l, Leaves k o) →
    ∃ p' r', p' ≤ g ∧ Held D p' k v u (run s l) r' ∧ (run s l).now = s.now + elapsed l := by
  induction l with
  | nil => intro s p r h hp _ _ _; exact ⟨p, r, hp, h, rfl⟩
  | cons o l ih =>
    intro s p r h hp hpc ha hl
    obtain ⟨r', h'⟩ := held_step hD h o (ha o (List.mem_cons_self ..)) (hl o (List.mem_cons_self ..)) hp
    obtain ⟨p2, r2, a, b, c⟩ := ih (step s o) (gap p o) r' h' (paced_gap hp hpc) (paced_cons hpc)
      (fun x hx => ha x (List.mem_cons_of_mem _ hx)) (fun x hx => hl x (List.mem_cons_of_mem _ hx))
    refine ⟨p2, r2, a, b, ?_⟩
    show (run (step s o) l).now = _
    rw [c]
    exact now_step s o l (fun x hx => ⟨k, hl x hx⟩)

theorem timely_run {D g : Nat} (hD : D + g < 2 ^ 32) (l : List Op) (rest : List Op) : ∀ (s : St) (p r : Nat), Timely D p s r →
    p ≤ g → Paced g p (l ++ rest) → (∀ o ∈ l, Asks D o) →
    ∃ p' r', p' ≤ g ∧ Timely D p' (run s l) r' ∧ Paced g p' rest := by
  induction l with
  | nil => intro s p r h hp hpc _; exact ⟨p, r, hp, h, hpc⟩
  | cons o l ih =>
    intro s p r h hp hpc ha
    obtain ⟨r', h'⟩ := timely_step hD h o (ha o (List.mem_cons_self ..)) hp
    exact ih (step s o) (gap p o) r' h' (paced_gap hp hpc) (paced_cons hpc)
      (fun x hx => ha x (List.mem_cons_of_mem _ hx))

/-- **C112 (saved in time).** Take any history `a` of a device, with restarts and losses of power, in which the main loop runs
at least every `g` milliseconds and every request has a delay between 1 and `D`.  A setting `k` changed to `v` and then left
alone while other settings change in any way: once more than `D + g` milliseconds have passed it is in the flash, and a loss of
power leaves it as it is. -/
theorem saved_in_time (D g : Nat) (hD : D + g < 2 ^ 32) (a b : List Op) (k v d : Nat)
    (hp : Paced g 0 (a ++ .change k v d :: b)) (hA : ∀ o ∈ a ++ .change k v d :: b, Asks D o) (hL : ∀ o ∈ b, Leaves k o)
    (ht : D + g < elapsed b) :
    (run {} (a ++ .change k v d :: b)).disk k = v ∧ (run {} (a ++ .change k v d :: b ++ [.power])).mem k = v := by
  obtain ⟨p, r, hpg, h, hpc⟩ := timely_run hD a (.change k v d :: b) {} 0 0 (fun hd => absurd rfl hd) (Nat.zero_le _) hp
    (fun o ho => hA o (List.mem_append_left _ ho))
  have hmem : ∀ {o : Op}, o ∈ Op.change k v d :: b → Asks D o := fun ho => hA _ (List.mem_append_right _ ho)
  have e : run {} (a ++ .change k v d :: b) = run (step (run {} a) (.change k v d)) b := by
    unfold run; rw [List.foldl_append]; rfl
  generalize run {} a = s at h e
  have hd := hmem (List.mem_cons_self ..)
  have hh : ∃ r', Held D p k v s.now (step s (.change k v d)) r' := by
    obtain ⟨r', h'⟩ := timely_step hD h (.change k v d) hd hpg
    have hm : (step s (.change k v d)).mem k = v := by
      unfold step saveWith
      dsimp only
      split
      · exact if_pos rfl
      · exact if_pos rfl
    by_cases hz : s.delay = 0
    · refine ⟨s.now, ?_, hm, .inr ?_⟩
      · intro _
        unfold step saveWith
        dsimp only
        rw [if_pos hz]
        refine ⟨rfl, Nat.le_refl _, Nat.le_trans (Nat.mod_le _ _) hd.2, ?_⟩
        show s.now ≤ s.now + D + p; omega
      · unfold step saveWith
        dsimp only
        rw [if_pos hz]
        refine ⟨?_, Nat.le_refl _⟩
        have h1 : 1 ≤ d := hd.1
        have h2 : d ≤ D := hd.2
        show d % 2 ^ 32 ≠ 0
        omega
    · refine ⟨r, ?_, hm, .inr ?_⟩
      · intro _
        unfold step saveWith
        dsimp only
        rw [if_neg hz]
        exact h hz
      · unfold step saveWith
        dsimp only
        rw [if_neg hz]
        exact ⟨hz, (h hz).2.1⟩
  obtain ⟨r', h'⟩ := hh
  obtain ⟨p2, r2, hp2, h2, hn⟩ := held_run hD b _ p r' h' hpg (paced_cons hpc) (fun o ho => hmem (List.mem_cons_of_mem _ ho)) hL
  have hnow : (step s (.change k v d)).now = s.now := by
    unfold step saveWith
    dsimp only
    split <;> rfl
  have hdisk : (run (step s (.change k v d)) b).disk k = v := by
    rcases h2.disk with h3 | ⟨h3, h4⟩
    · exact h3
    · have h5 := (h2.timely h3).2.2.2
      rw [hn, hnow] at h5
      exfalso
      omega
  refine ⟨by rw [e]; exact hdisk, ?_⟩
  have e2 : run {} (a ++ .change k v d :: b ++ [.power]) = step (run {} (a ++ .change k v d :: b)) .power := by
    unfold run; rw [List.foldl_append]; rfl
  rw [e2, e]
  exact hdisk

/-- A setting is changed while another one is pending; 6 seconds later both are in the flash. -/
example : (run {} [.change 1 7 5000, .wait 100, .pass, .change 2 9 1000, .wait 100, .pass, .commit, .wait 90, .change 1 3 2000,
    .wait 90, .pass]).disk 1 = 7 := by decide
example : Paced 100 0 [.change 1 7 5, .wait 100, .pass, .change 2 9 5, .wait 100, .pass] ∧
    (run {} [.change 1 7 5, .wait 100, .pass, .change 2 9 5, .wait 100, .pass]).disk 1 = 7 ∧
    (run {} [.change 1 7 5, .wait 100, .pass, .change 2 9 5, .wait 100, .pass]).disk 2 = 9 := by
  refine ⟨?_, ?_, ?_⟩
  · simp [Paced]
  · decide
  · decide

/-- **C112 (only what was set).** The flash never holds a value that nobody set. -/
theorem disk_was_set (ops : List Op) (k : Nat) :
    (run {} ops).disk k = 0 ∨ ∃ d, .change k ((run {} ops).disk k) d ∈ ops := by
  have key : ∀ (ops pre : List Op) (s : St),
      (∀ x, s.mem k = x ∨ s.disk k = x → x = 0 ∨ ∃ d, Op.change k x d ∈ pre) →
      ∀ x, (run s ops).mem k = x ∨ (run s ops).disk k = x → x = 0 ∨ ∃ d, Op.change k x d ∈ pre ++ ops := by
    intro ops
    induction ops with
    | nil => intro pre s h x hx; rw [List.append_nil]; exact h x hx
    | cons o ops ih =>
      intro pre s h
      have h' : ∀ x, (step s o).mem k = x ∨ (step s o).disk k = x → x = 0 ∨ ∃ d, Op.change k x d ∈ pre ++ [o] := by
        intro x hx
        have up : (s.mem k = x ∨ s.disk k = x) → x = 0 ∨ ∃ d, Op.change k x d ∈ pre ++ [o] := by
          intro w
          rcases h x w with a | ⟨d, a⟩
          · exact .inl a
          · exact .inr ⟨d, List.mem_append_left _ a⟩
        cases o with
        | wait d => exact up hx
        | change k' v d =>
          have hm : (step s (.change k' v d)).mem k = if k = k' then v else s.mem k := by
            unfold step saveWith
            dsimp only
            split <;> rfl
          have hd : (step s (.change k' v d)).disk k = s.disk k := by
            unfold step saveWith
            dsimp only
            split <;> rfl
          rw [hm, hd] at hx
          by_cases hk : k = k'
          · rw [if_pos hk] at hx
            rcases hx with hx | hx
            · right
              refine ⟨d, List.mem_append_right _ ?_⟩
              rw [← hx, ← hk]
              exact List.mem_singleton.mpr rfl
            · exact up (.inr hx)
          · rw [if_neg hk] at hx
            exact up hx
        | pass =>
          unfold step saveIf at hx
          dsimp only at hx
          split at hx
          · exact up (.inl (hx.elim id id))
          · exact up hx
        | commit => exact up (.inl (hx.elim id id))
        | power => exact up (.inr (hx.elim id id))
      have := ih (pre ++ [o]) (step s o) h'
      rw [List.append_assoc] at this
      exact this
  have := key ops [] {} (fun x hx => .inl (hx.elim (fun w => w.symm) (fun w => w.symm))) _ (.inr rfl)
  rwa [List.nil_append] at this

/-- No commit by another part, no loss of power, and delays of at least `m` milliseconds. -/
def Slow (m : Nat) : Op → Prop
  | .change _ _ d => m ≤ d ∧ d < 2 ^ 32
  | .commit => False
  | .power => False
  | _ => True

/-- **C112 (the flash is spared).** However often settings are changed and requests are made: `n` writes of the flash take more
than `n` times the shortest delay. -/
theorem writes_paced (m : Nat) (ops : List Op) (h : ∀ o ∈ ops, Slow m o) : (m + 1) * (run {} ops).writes ≤ elapsed ops := by
  have key : ∀ (ops : List Op) (s : St) (r : Nat), (∀ o ∈ ops, Slow m o) →
      ((m + 1) * s.writes ≤ s.now ∧ (s.delay ≠ 0 → s.ts = clk r ∧ r ≤ s.now ∧ m ≤ s.delay ∧ (m + 1) * s.writes ≤ r)) →
      (m + 1) * (run s ops).writes ≤ s.now + elapsed ops := by
    intro ops
    induction ops with
    | nil => intro s r _ h; exact h.1
    | cons o ops ih =>
      intro s r hS h
      have hs := hS o (List.mem_cons_self ..)
      have hr : ∃ r', ((m + 1) * (step s o).writes ≤ (step s o).now ∧ ((step s o).delay ≠ 0 →
          (step s o).ts = clk r' ∧ r' ≤ (step s o).now ∧ m ≤ (step s o).delay ∧ (m + 1) * (step s o).writes ≤ r')) := by
        cases o with
        | wait d =>
          refine ⟨r, Nat.le_trans h.1 (Nat.le_add_right _ _), fun hd => ?_⟩
          obtain ⟨a, b, c, e⟩ := h.2 hd
          exact ⟨a, Nat.le_trans b (Nat.le_add_right _ _), c, e⟩
        | change k v d =>
          unfold step saveWith
          dsimp only
          split
          · exact ⟨s.now, h.1, fun _ => ⟨rfl, Nat.le_refl _, by
              show m ≤ d % 2 ^ 32
              rw [Nat.mod_eq_of_lt hs.2]
              exact hs.1, h.1⟩⟩
          · exact ⟨r, h⟩
        | pass =>
          unfold step saveIf
          dsimp only
          split
          · rename_i hc
            obtain ⟨a, b, c, e⟩ := h.2 hc.1
            have hle : since (clk s.now) s.ts ≤ s.now - r := by rw [a]; exact since_clk_le _ _ b
            refine ⟨r, ?_, fun hd => absurd rfl hd⟩
            show (m + 1) * (s.writes + 1) ≤ s.now
            have h1 : s.delay < s.now - r := Nat.lt_of_lt_of_le hc.2 hle
            rw [Nat.mul_add, Nat.mul_one]
            omega
          · exact ⟨r, h⟩
        | commit => exact absurd hs id
        | power => exact absurd hs id
      obtain ⟨r', hr⟩ := hr
      have := ih (step s o) r' (fun x hx => hS x (List.mem_cons_of_mem _ hx)) hr
      have hn : (step s o).now + elapsed ops = s.now + elapsed (o :: ops) := by
        refine now_step s o ops (fun x hx => ?_)
        have := hS x hx
        cases x with
        | power => exact absurd this id
        | change k v d => exact ⟨k + 1, Nat.ne_of_lt (Nat.lt_succ_self k)⟩
        | _ => exact ⟨0, trivial⟩
      rw [hn] at this
      exact this
  have := key ops {} 0 h ⟨Nat.zero_le _, fun hd => absurd rfl hd⟩
  simpa using this

/-- The full claim: a request with the delay `d` is carried out `d` milliseconds later, up to the period of the loop. -/
def OnRequest : Prop :=
  ∀ (D g : Nat) (a b : List Op) (k v d : Nat), D + g < 2 ^ 32 → Paced g 0 (a ++ .change k v d :: b) →
    (∀ o ∈ a ++ .change k v d :: b, Asks D o) → (∀ o ∈ b, Leaves k o) → d + g < elapsed b →
    (run {} (a ++ .change k v d :: b)).disk k = v

/-- **C112 (violation).** A short delay is not kept while a longer one is pending: a setting to be saved after one second waits
for the five seconds of another. -/
theorem on_request_violation : ¬ OnRequest := by
  intro h
  have := h 5000 600 [.change 1 7 5000] [.wait 600, .pass, .wait 600, .pass, .wait 600, .pass] 2 9 1000 (by decide)
    (by simp [Paced])
    (by intro o ho
        simp only [List.cons_append, List.nil_append, List.mem_cons, List.not_mem_nil, or_false] at ho
        rcases ho with rfl | rfl | rfl | rfl | rfl | rfl | rfl | rfl <;> simp [Asks])
    (by intro o ho
        simp only [List.mem_cons, List.not_mem_nil, or_false] at ho
        rcases ho with rfl | rfl | rfl | rfl | rfl | rfl <;> simp [Leaves])
    (by simp [elapsed])
  revert this
  decide

/-- **C112 (violation).** A request with the delay 0 is no request: the setting stays in memory however long the device runs,
and the next loss of power takes it back. -/
theorem zero_delay_violation (n : Nat) :
    (run {} ([.change 1 7 0] ++ (List.replicate n [Op.wait 100, Op.pass]).flatten ++ [.power])).mem 1 = 0 := by
  have key : ∀ (n : Nat) (s : St), s.delay = 0 → s.disk 1 = 0 →
      (run s ((List.replicate n [Op.wait 100, Op.pass]).flatten ++ [.power])).mem 1 = 0 := by
    intro n
    induction n with
    | zero => intro s _ h; exact h
    | succ n ih =>
      intro s h1 h2
      rw [List.replicate_succ, List.flatten_cons]
      show (run (step (step s (.wait 100)) .pass) _).mem 1 = 0
      have e : step (step s (.wait 100)) .pass = { s with now := s.now + 100 } := by
        unfold step saveIf
        dsimp only
        exact if_neg (fun w => w.1 h1)
      rw [e]
      exact ih _ h1 h2
  rw [List.append_assoc]
  show (run (step {} (.change 1 7 0)) _).mem 1 = 0
  exact key n _ rfl rfl

end Verif.Save
