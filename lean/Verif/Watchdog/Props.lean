import Verif.Watchdog.Model

/-!
# C156: a device that hangs is restarted, one that works is not
-/

namespace Verif.Watchdog

/-- The loop comes by often enough: never `limit` ms without it. -/
def Alive (limit : Nat) : List Op → Nat → Prop
  | [], acc => acc < limit
  | .iterate :: ops, acc => acc < limit ∧ Alive limit ops 0
  | .pass ms :: ops, acc => acc < limit ∧ Alive limit ops (acc + ms)
  | _ :: ops, acc => acc < limit ∧ Alive limit ops acc

/-- The timeout the device should have: long for a download and a test. -/
def due (d : Dog) : Nat := if d.status = 50 ∨ d.mode = 1 then 300000 else 60000

/-- The full claim on the timeout: after any events it is the one due. -/
def Follows : Prop := ∀ anew ops, (run anew fresh ops).chip = due (run anew fresh ops)

theorem reconfigure_frame (anew : Bool) (ms : Nat) (d : Dog) (h : d.chip = d.last) :
    (reconfigure anew ms d).chip = ms ∧ (reconfigure anew ms d).last = ms ∧
    (reconfigure anew ms d).status = d.status ∧ (reconfigure anew ms d).mode = d.mode ∧
    (reconfigure anew ms d).reset = d.reset ∧ (reconfigure anew ms d).idle ≤ d.idle := by
  unfold reconfigure
  by_cases e : d.last = ms
  · rw [if_pos e]
    exact ⟨h.trans e, e, rfl, rfl, rfl, Nat.le_refl _⟩
  · rw [if_neg e]
    refine ⟨rfl, rfl, rfl, rfl, rfl, ?_⟩
    dsimp only
    split
    · omega
    · exact Nat.le_refl _

theorem handle_frame (anew : Bool) (d : Dog) (h : d.chip = d.last) :
    (handle anew d).chip = due d ∧ (handle anew d).last = due d ∧
    (handle anew d).status = d.status ∧ (handle anew d).mode = d.mode ∧
    (handle anew d).reset = d.reset ∧ (handle anew d).idle ≤ d.idle := by
  unfold handle due
  by_cases e : d.status = 50 ∨ d.mode = 1
  · rw [if_pos e, if_pos e]
    exact reconfigure_frame anew _ d h
  · rw [if_neg e, if_neg e]
    exact reconfigure_frame anew _ d h

/-- The chip has the timeout the element remembers, one of the two. -/
def Sound (d : Dog) : Prop := d.chip = d.last ∧ (d.chip = 60000 ∨ d.chip = 300000)

theorem step_sound (anew : Bool) (d : Dog) (o : Op) (h : Sound d) : Sound (step anew d o) := by
  cases o with
  | status n =>
    show Sound (setStatus anew n d)
    unfold setStatus
    by_cases hr : refused d.status n
    · rw [if_pos hr]; exact h
    · rw [if_neg hr]
      have hf := handle_frame anew { d with status := n } h.1
      refine ⟨hf.1.trans hf.2.1.symm, ?_⟩
      rw [hf.1]
      unfold due
      split
      · exact Or.inr rfl
      · exact Or.inl rfl
  | mode m => exact h
  | iterate => exact h
  | pass ms => exact h

theorem run_sound (anew : Bool) (ops : List Op) (d : Dog) (h : Sound d) : Sound (run anew d ops) := by
  induction ops generalizing d with
  | nil => exact h
  | cons o ops ih => exact ih _ (step_sound anew d o h)

theorem fresh_sound : Sound fresh := ⟨rfl, Or.inl rfl⟩

/-! ## Restart -/

/-- A loop that comes by more often than once in 60 s is never interrupted,
whatever the status and the mode do. -/
theorem working_not_reset (anew : Bool) (ops : List Op) (h : Alive 60000 ops 0) :
    (run anew fresh ops).reset = false := by
  have key : ∀ (ops : List Op) (d : Dog) (acc : Nat), Sound d → d.idle ≤ acc →
      Alive 60000 ops acc → d.reset = false → (run anew d ops).reset = false := by
    intro ops
    induction ops with
    | nil => intro d _ _ _ _ hr; exact hr
    | cons o ops ih =>
      intro d acc hs hi ha hr
      have hs' := step_sound anew d o hs
      cases o with
      | status n =>
        refine ih _ acc hs' ?_ ha.2 ?_
        · show (setStatus anew n d).idle ≤ acc
          unfold setStatus
          by_cases hq : refused d.status n
          · rw [if_pos hq]; exact hi
          · rw [if_neg hq]
            exact Nat.le_trans (handle_frame anew { d with status := n } hs.1).2.2.2.2.2 hi
        · show (setStatus anew n d).reset = false
          unfold setStatus
          by_cases hq : refused d.status n
          · rw [if_pos hq]; exact hr
          · rw [if_neg hq]
            exact (handle_frame anew { d with status := n } hs.1).2.2.2.2.1.trans hr
      | mode m => exact ih _ acc hs' hi ha.2 hr
      | iterate => exact ih _ 0 hs' (Nat.le_refl _) ha.2 hr
      | pass ms =>
        have hlt : acc + ms < 60000 := by
          cases ops with
          | nil => exact ha.2
          | cons o' ops' => cases o' <;> exact ha.2.1
        refine ih _ (acc + ms) hs' ?_ ha.2 ?_
        · show d.idle + ms ≤ acc + ms
          omega
        · show (d.reset || decide (d.chip ≤ d.idle + ms)) = false
          have hc : 60000 ≤ d.chip := by
            rcases hs.2 with e | e <;> rw [e] <;> omega
          rw [hr, decide_eq_false (by omega)]
          rfl
  exact key ops fresh 0 fresh_sound (Nat.le_refl _) h rfl

example : (run true fresh [.pass 59999, .status 50, .iterate, .pass 59999]).reset = false :=
  working_not_reset true _ (by simp [Alive])

/-- A device that hangs for the timeout of the chip is restarted, after any
history; so for 5 minutes always. -/
theorem hanging_reset (anew : Bool) (ops : List Op) (ms : Nat)
    (h : (run anew fresh ops).chip ≤ ms) :
    (run anew fresh (ops ++ [.pass ms])).reset = true := by
  unfold run at h ⊢
  rw [List.foldl_append]
  generalize ops.foldl (step anew) fresh = d at h ⊢
  show (d.reset || decide (d.chip ≤ d.idle + ms)) = true
  rw [decide_eq_true (by omega), Bool.or_true]

theorem hanging_reset_always (anew : Bool) (ops : List Op) (ms : Nat) (h : 300000 ≤ ms) :
    (run anew fresh (ops ++ [.pass ms])).reset = true := by
  apply hanging_reset
  rcases (run_sound anew ops fresh fresh_sound).2 with e | e <;> rw [e] <;> omega

/-- A restart, once due, is not taken back. -/
theorem reset_stays (anew : Bool) (ops : List Op) (d : Dog) (hs : Sound d) (h : d.reset = true) :
    (run anew d ops).reset = true := by
  induction ops generalizing d with
  | nil => exact h
  | cons o ops ih =>
    refine ih _ (step_sound anew d o hs) ?_
    cases o with
    | status n =>
      show (setStatus anew n d).reset = true
      unfold setStatus
      by_cases hq : refused d.status n
      · rw [if_pos hq]; exact h
      · rw [if_neg hq]
        exact (handle_frame anew { d with status := n } hs.1).2.2.2.2.1.trans h
    | mode m => exact h
    | iterate => exact h
    | pass ms =>
      show (d.reset || _) = true
      rw [h, Bool.true_or]

/-! ## Timeout -/

/-- After a change of status that is accepted the timeout is the one due. -/
theorem follows_change (anew : Bool) (ops : List Op) (n : Int)
    (h : ¬ refused (run anew fresh ops).status n) :
    (run anew fresh (ops ++ [.status n])).chip = due (run anew fresh (ops ++ [.status n])) ∧
    (run anew fresh (ops ++ [.status n])).status = n := by
  have hs := run_sound anew ops fresh fresh_sound
  have e : run anew fresh (ops ++ [.status n]) = setStatus anew n (run anew fresh ops) := by
    unfold run
    rw [List.foldl_append]
    rfl
  rw [e]
  generalize run anew fresh ops = d at h hs
  unfold setStatus
  rw [if_neg h]
  have hf := handle_frame anew { d with status := n } hs.1
  refine ⟨?_, hf.2.2.1⟩
  rw [hf.1]
  unfold due
  rw [hf.2.2.1, hf.2.2.2.1]

example : (run true fresh ([] ++ [.status 50])).chip = 300000 := by
  rw [(follows_change true [] 50 (by decide)).1]
  decide

/-- As long as nothing sets the mode, the timeout is always the one due. -/
theorem follows_partial (anew : Bool) (ops : List Op) (h : ∀ o ∈ ops, ∀ m, o ≠ .mode m) :
    (run anew fresh ops).chip = due (run anew fresh ops) := by
  have key : ∀ (ops : List Op) (d : Dog), (∀ o ∈ ops, ∀ m, o ≠ .mode m) → Sound d →
      d.chip = due d → (run anew d ops).chip = due (run anew d ops) := by
    intro ops
    induction ops with
    | nil => intro d _ _ e; exact e
    | cons o ops ih =>
      intro d hm hs e
      refine ih _ (fun x hx => hm x (List.mem_cons_of_mem _ hx)) (step_sound anew d o hs) ?_
      cases o with
      | status n =>
        show (setStatus anew n d).chip = due (setStatus anew n d)
        unfold setStatus
        by_cases hq : refused d.status n
        · rw [if_pos hq]; exact e
        · rw [if_neg hq]
          have hf := handle_frame anew { d with status := n } hs.1
          rw [hf.1]
          unfold due
          rw [hf.2.2.1, hf.2.2.2.1]
      | mode m => exact absurd rfl (hm _ List.mem_cons_self m)
      | iterate => exact e
      | pass ms => exact e
  exact key ops fresh h fresh_sound rfl

/-- A mode set without a change of status leaves the timeout as it was: a device
that leaves its test keeps the long one, one that enters it the short one. -/
theorem mode_ignored_violation (anew : Bool) (ops : List Op) (m : Nat) :
    (run anew fresh (ops ++ [.mode m])).chip = (run anew fresh ops).chip := by
  unfold run
  rw [List.foldl_append]
  rfl

/-- So the full claim is false. -/
theorem follows_violation : ¬ Follows := by
  intro h
  have := h true [.mode 1, .status 5, .mode 2]
  revert this
  decide

/-- After a download that was given up, connecting again is not a change of
status: the long timeout stays through any number of attempts to register, and any
time and rounds of the loop. -/
theorem download_kept_violation (anew : Bool) (ops : List Op)
    (h : ∀ o ∈ ops, o = .status 10 ∨ o = .status 50 ∨ o = .mode 2 ∨ o = .iterate ∨ ∃ ms, o = .pass ms)
    (d : Dog) (hd : d.status = 50) (hc : d.chip = 300000) :
    (run anew d ops).status = 50 ∧ (run anew d ops).chip = 300000 := by
  induction ops generalizing d with
  | nil => exact ⟨hd, hc⟩
  | cons o ops ih =>
    have ht := fun x hx => h x (List.mem_cons_of_mem _ hx)
    have stay : ∀ n, n = 10 ∨ n = 50 → setStatus anew n d = d := by
      intro n hn
      unfold setStatus
      apply if_pos
      unfold refused
      rw [hd]
      omega
    rcases h o List.mem_cons_self with e | e | e | e | ⟨ms, e⟩ <;> subst e
    · refine ih ht _ ?_ ?_
      · show (setStatus anew 10 d).status = 50
        rw [stay 10 (Or.inl rfl)]; exact hd
      · show (setStatus anew 10 d).chip = 300000
        rw [stay 10 (Or.inl rfl)]; exact hc
    · refine ih ht _ ?_ ?_
      · show (setStatus anew 50 d).status = 50
        rw [stay 50 (Or.inr rfl)]; exact hd
      · show (setStatus anew 50 d).chip = 300000
        rw [stay 50 (Or.inr rfl)]; exact hc
    · exact ih ht _ hd hc
    · exact ih ht _ hd hc
    · exact ih ht _ hd hc

example : (run true (run true fresh [.mode 4, .status 50]) [.mode 2, .status 10, .iterate]).chip
    = 300000 :=
  (download_kept_violation true _ (by simp) _ (by decide) (by decide)).2

end Verif.Watchdog
