import Verif.Aggregator.Use

/-!
# A pump or source relay knows exactly the thermostats that use it: where this holds and where not
-/

namespace Verif.Aggregator.Use

/-! ## Registration, one channel at a time -/

theorem put_self (r : Nat → Bool) (n : Nat) (b : Bool) : put r n b n = b := by
  unfold put; rw [if_pos rfl]

theorem put_other (r : Nat → Bool) (n k : Nat) (b : Bool) (h : k ≠ n) : put r n b k = r k := by
  unfold put; rw [if_neg h]

theorem register_reg (s : St) (n k : Nat) :
    (register s n).reg k = true ↔ s.reg k = true ∨ (k = n ∧ s.agg n = true) := by
  unfold register
  split
  · next h =>
    dsimp only
    by_cases hk : k = n
    · subst hk; rw [put_self]; exact ⟨fun _ => Or.inr ⟨rfl, h⟩, fun _ => rfl⟩
    · rw [put_other _ _ _ _ hk]; exact ⟨Or.inl, fun h' => h'.elim id fun h'' => absurd h''.1 hk⟩
  · next h => exact ⟨Or.inl, fun h' => h'.elim id fun h'' => absurd h''.2 h⟩

theorem unregister_reg (s : St) (n k : Nat) :
    (unregister s n).reg k = true ↔ s.reg k = true ∧ (k ≠ n ∨ s.agg n = false) := by
  unfold unregister
  split
  · next h =>
    dsimp only
    by_cases hk : k = n
    · subst hk; rw [put_self]
      exact ⟨(fun h' => by cases h'), fun h' => h'.2.elim (fun h'' => absurd rfl h'') (fun h'' => by rw [h] at h''; cases h'')⟩
    · rw [put_other _ _ _ _ hk]; exact ⟨fun h' => ⟨h', Or.inl hk⟩, fun h' => h'.1⟩
  · next h =>
    exact ⟨fun h' => ⟨h', Or.inr (by cases ha : s.agg n with | true => exact absurd ha h | false => rfl)⟩, fun h' => h'.1⟩

theorem register_frame (s : St) (n : Nat) : (register s n).agg = s.agg ∧ (register s n).cfg = s.cfg ∧
    (register s n).me = s.me ∧ (register s n).initial = s.initial ∧ (register s n).flag = s.flag ∧
    (register s n).dPump = s.dPump ∧ (register s n).dSrc = s.dSrc ∧ (register s n).initDone = s.initDone := by
  unfold register; split <;> exact ⟨rfl, rfl, rfl, rfl, rfl, rfl, rfl, rfl⟩

theorem unregister_frame (s : St) (n : Nat) : (unregister s n).agg = s.agg ∧ (unregister s n).cfg = s.cfg ∧
    (unregister s n).me = s.me ∧ (unregister s n).initial = s.initial ∧ (unregister s n).flag = s.flag ∧
    (unregister s n).dPump = s.dPump ∧ (unregister s n).dSrc = s.dSrc ∧ (unregister s n).initDone = s.initDone := by
  unfold unregister; split <;> exact ⟨rfl, rfl, rfl, rfl, rfl, rfl, rfl, rfl⟩

theorem registerIf_reg (b : Bool) (s : St) (n k : Nat) :
    (registerIf b s n).reg k = true ↔ s.reg k = true ∨ (b = true ∧ k = n ∧ s.agg n = true) := by
  unfold registerIf
  cases b with
  | true => rw [if_pos rfl, register_reg]; exact ⟨fun h => h.imp id fun h' => ⟨rfl, h'⟩, fun h => h.imp id fun h' => h'.2⟩
  | false => rw [if_neg Bool.false_ne_true]; exact ⟨Or.inl, fun h => h.elim id (fun h' => by cases h'.1)⟩

theorem registerIf_frame (b : Bool) (s : St) (n : Nat) : (registerIf b s n).agg = s.agg ∧ (registerIf b s n).cfg = s.cfg ∧
    (registerIf b s n).me = s.me ∧ (registerIf b s n).initial = s.initial := by
  unfold registerIf
  have h := register_frame s n
  split
  · exact ⟨h.1, h.2.1, h.2.2.1, h.2.2.2.1⟩
  · exact ⟨rfl, rfl, rfl, rfl⟩

theorem unregisterIf_reg (b : Bool) (s : St) (n k : Nat) :
    (unregisterIf b s n).reg k = true ↔ s.reg k = true ∧ (b = false ∨ k ≠ n ∨ s.agg n = false) := by
  unfold unregisterIf
  cases b with
  | true => rw [if_pos rfl, unregister_reg]; exact ⟨fun h => ⟨h.1, Or.inr h.2⟩, fun h => ⟨h.1, h.2.elim (fun h' => by cases h') id⟩⟩
  | false => rw [if_neg Bool.false_ne_true]; exact ⟨fun h => ⟨h, Or.inl rfl⟩, fun h => h.1⟩

theorem unregisterIf_frame (b : Bool) (s : St) (n : Nat) : (unregisterIf b s n).agg = s.agg ∧
    (unregisterIf b s n).me = s.me ∧ (unregisterIf b s n).initial = s.initial := by
  unfold unregisterIf
  have h := unregister_frame s n
  split
  · exact ⟨h.1, h.2.2.1, h.2.2.2.1⟩
  · exact ⟨rfl, rfl, rfl⟩

/-! ## What a tick, a configuration and a setter register -/

theorem tick_reg (s : St) (hf : s.flag = false) (k : Nat) : (tick s).reg k = true ↔
    s.reg k = true ∨ (s.agg k = true ∧ Uses s.cfg k) := by
  unfold tick
  rw [hf, if_neg Bool.false_ne_true]
  dsimp only
  rw [registerIf_reg, registerIf_reg, (registerIf_frame _ _ _).1]
  constructor
  · rintro ((h | ⟨h1, h2, h3⟩) | ⟨h1, h2, h3⟩)
    · exact Or.inl h
    · subst h2; exact Or.inr ⟨h3, Or.inl ⟨h1, rfl⟩⟩
    · subst h2; exact Or.inr ⟨h3, Or.inr ⟨h1, rfl⟩⟩
  · rintro (h | ⟨h1, ⟨h2, h3⟩ | ⟨h2, h3⟩⟩)
    · exact Or.inl (Or.inl h)
    · subst h3; exact Or.inl (Or.inr ⟨h2, rfl, h1⟩)
    · subst h3; exact Or.inr ⟨h2, rfl, h1⟩

theorem tick_frame (s : St) : (tick s).agg = s.agg ∧ (tick s).cfg = s.cfg ∧ (tick s).me = s.me ∧
    (tick s).initial = s.initial := by
  unfold tick
  split
  · exact ⟨rfl, rfl, rfl, rfl⟩
  · have h1 := registerIf_frame s.cfg.pumpSet s s.cfg.pumpNo
    have h2 := registerIf_frame s.cfg.srcSet (registerIf s.cfg.pumpSet s s.cfg.pumpNo) s.cfg.srcNo
    exact ⟨h2.1.trans h1.1, h2.2.1.trans h1.2.1, h2.2.2.1.trans h1.2.2.1, h2.2.2.2.trans h1.2.2.2⟩

theorem tick_flag (s : St) (hf : s.flag = false) (ht : (tick s).flag = true) : ∀ n, Uses s.cfg n → s.agg n = true := by
  have h : (tick s).flag = (ready s s.cfg.pumpSet s.cfg.pumpNo && ready s s.cfg.srcSet s.cfg.srcNo) := by
    unfold tick; rw [hf, if_neg Bool.false_ne_true]
  rw [h, Bool.and_eq_true] at ht
  unfold ready at ht
  rintro n (⟨h1, h2⟩ | ⟨h1, h2⟩)
  · have := ht.1; rw [h1, h2] at this; exact this
  · have := ht.2; rw [h1, h2] at this; exact this

theorem accept_reg (s : St) (c : Cfg) (k : Nat) : (accept s c).reg k = true ↔
    (s.reg k = true ∧ (s.cfg.pumpNo = c.pumpNo ∨ k ≠ s.cfg.pumpNo ∨ s.agg k = false) ∧
      (s.cfg.srcNo = c.srcNo ∨ k ≠ s.cfg.srcNo ∨ s.agg k = false)) ∨
    (s.agg k = true ∧ (k = c.pumpNo ∨ k = c.srcNo)) := by
  unfold accept
  dsimp only
  have ne : ∀ a b : Nat, (a != b) = false ↔ a = b := fun a b => by rw [bne_eq_false_iff_eq]
  rw [register_reg, register_reg, (register_frame _ _).1, unregisterIf_reg, unregisterIf_reg,
    (unregisterIf_frame _ s _).1, (unregisterIf_frame _ _ _).1, (unregisterIf_frame _ s _).1, ne, ne]
  constructor
  · rintro ((⟨⟨h1, h2⟩, h3⟩ | ⟨h1, h2⟩) | ⟨h1, h2⟩)
    · refine Or.inl ⟨h1, ?_, ?_⟩
      · rcases h2 with h | h | h
        · exact Or.inl h
        · exact Or.inr (Or.inl h)
        · by_cases hk : k = s.cfg.pumpNo
          · exact Or.inr (Or.inr (hk ▸ h))
          · exact Or.inr (Or.inl hk)
      · rcases h3 with h | h | h
        · exact Or.inl h
        · exact Or.inr (Or.inl h)
        · by_cases hk : k = s.cfg.srcNo
          · exact Or.inr (Or.inr (hk ▸ h))
          · exact Or.inr (Or.inl hk)
    · subst h1; exact Or.inr ⟨h2, Or.inl rfl⟩
    · subst h1; exact Or.inr ⟨h2, Or.inr rfl⟩
  · rintro (⟨h1, h2, h3⟩ | ⟨h1, h2 | h2⟩)
    · refine Or.inl (Or.inl ⟨⟨h1, ?_⟩, ?_⟩)
      · rcases h2 with h | h | h
        · exact Or.inl h
        · exact Or.inr (Or.inl h)
        · by_cases hk : k = s.cfg.pumpNo
          · exact Or.inr (Or.inr (hk ▸ h))
          · exact Or.inr (Or.inl hk)
      · rcases h3 with h | h | h
        · exact Or.inl h
        · exact Or.inr (Or.inl h)
        · by_cases hk : k = s.cfg.srcNo
          · exact Or.inr (Or.inr (hk ▸ h))
          · exact Or.inr (Or.inl hk)
    · subst h2; exact Or.inl (Or.inr ⟨rfl, h1⟩)
    · subst h2; exact Or.inr ⟨rfl, h1⟩

theorem accept_frame (s : St) (c : Cfg) : (accept s c).agg = s.agg ∧ (accept s c).cfg = c ∧ (accept s c).me = s.me ∧
    (accept s c).initial = s.initial ∧ (accept s c).flag = false := by
  unfold accept
  dsimp only
  have h1 := unregisterIf_frame (s.cfg.pumpNo != c.pumpNo) s s.cfg.pumpNo
  have h2 := unregisterIf_frame (s.cfg.srcNo != c.srcNo) (unregisterIf (s.cfg.pumpNo != c.pumpNo) s s.cfg.pumpNo) s.cfg.srcNo
  have h3 := register_frame (unregisterIf (s.cfg.srcNo != c.srcNo) (unregisterIf (s.cfg.pumpNo != c.pumpNo) s s.cfg.pumpNo) s.cfg.srcNo) c.pumpNo
  have h4 := register_frame (register (unregisterIf (s.cfg.srcNo != c.srcNo) (unregisterIf (s.cfg.pumpNo != c.pumpNo) s s.cfg.pumpNo) s.cfg.srcNo) c.pumpNo) c.srcNo
  exact ⟨h4.1.trans (h3.1.trans (h2.1.trans h1.1)), rfl, h4.2.2.1.trans (h3.2.2.1.trans (h2.2.1.trans h1.2.1)),
    h4.2.2.2.1.trans (h3.2.2.2.1.trans (h2.2.2.trans h1.2.2)), rfl⟩

theorem move_reg (s : St) (old new k : Nat) : (move s old new).reg k = true ↔
    (s.reg k = true ∧ (k ≠ old ∨ s.agg k = false)) ∨ (k = new ∧ k ≠ s.me ∧ s.agg k = true) := by
  have hu : (unregister s old).reg k = true ↔ (s.reg k = true ∧ (k ≠ old ∨ s.agg k = false)) := by
    rw [unregister_reg]
    constructor
    · rintro ⟨h1, h2⟩
      refine ⟨h1, ?_⟩
      rcases h2 with h | h
      · exact Or.inl h
      · by_cases hk : k = old
        · exact Or.inr (hk ▸ h)
        · exact Or.inl hk
    · rintro ⟨h1, h2⟩
      refine ⟨h1, ?_⟩
      rcases h2 with h | h
      · exact Or.inl h
      · by_cases hk : k = old
        · exact Or.inr (hk ▸ h)
        · exact Or.inl hk
  unfold move
  dsimp only
  split
  · next h =>
    dsimp only
    rw [hu]
    exact ⟨Or.inl, fun h' => h'.elim id fun h'' => absurd (h''.1.trans h) h''.2.1⟩
  · next h =>
    rw [register_reg]
    dsimp only
    rw [hu, (unregister_frame s old).1]
    constructor
    · rintro (h' | ⟨h1, h2⟩)
      · exact Or.inl h'
      · subst h1; exact Or.inr ⟨rfl, h, h2⟩
    · rintro (h' | ⟨h1, h2, h3⟩)
      · exact Or.inl h'
      · subst h1; exact Or.inr ⟨rfl, h3⟩

theorem move_frame (s : St) (old new : Nat) : (move s old new).agg = s.agg ∧ (move s old new).me = s.me ∧
    (move s old new).flag = false := by
  have h1 := unregister_frame s old
  unfold move
  dsimp only
  split
  · exact ⟨h1.1, h1.2.2.1, rfl⟩
  · have h2 := register_frame { unregister s old with flag := false } new
    exact ⟨h2.1.trans h1.1, h2.2.2.1.trans h1.2.2.1, h2.2.2.2.2.1⟩

/-! ## The invariant -/

/-- What calm histories preserve. -/
structure Inv (s : St) : Prop where
  sound : ∀ n, s.reg n = true → s.agg n = true ∧ Uses s.cfg n
  complete : s.flag = true → ∀ n, Uses s.cfg n → s.reg n = true
  own : s.agg s.me = false
  noInitial : s.initial = none

theorem inv_fresh (me : Nat) : Inv { me := me } :=
  ⟨(fun _ h => by cases h), (fun h => by cases h), rfl, rfl⟩

theorem inv_tick (s : St) (h : Inv s) : Inv (tick s) := by
  cases hf : s.flag with
  | true => have : tick s = s := by { unfold tick; rw [hf, if_pos rfl] }
            rw [this]; exact h
  | false =>
    have hr := tick_reg s hf
    have hfr := tick_frame s
    refine ⟨?_, ?_, ?_, ?_⟩
    · intro n hn
      rw [hfr.1, hfr.2.1]
      rcases (hr n).mp hn with h' | h'
      · exact h.sound n h'
      · exact h'
    · intro ht n hu
      rw [hfr.2.1] at hu
      exact (hr n).mpr (Or.inr ⟨tick_flag s hf ht n hu, hu⟩)
    · rw [hfr.1, hfr.2.2.1]; exact h.own
    · rw [hfr.2.2.2]; exact h.noInitial

theorem inv_accept (s : St) (c : Cfg) (ht : Tidy s.me c) (h : Inv s) : Inv (accept s c) := by
  have hfr := accept_frame s c
  refine ⟨?_, ?_, ?_, ?_⟩
  · intro n hn
    rw [hfr.1, hfr.2.1]
    have key : s.agg n = true ∧ (n = c.pumpNo ∨ n = c.srcNo) := by
      rcases (accept_reg s c n).mp hn with ⟨h1, h2, h3⟩ | h'
      · have ⟨ha, hu⟩ := h.sound n h1
        refine ⟨ha, ?_⟩
        rcases hu with ⟨_, hu⟩ | ⟨_, hu⟩
        · rcases h2 with h2 | h2 | h2
          · exact Or.inl (hu.symm.trans h2)
          · exact absurd hu.symm h2
          · rw [ha] at h2; cases h2
        · rcases h3 with h2 | h2 | h2
          · exact Or.inr (hu.symm.trans h2)
          · exact absurd hu.symm h2
          · rw [ha] at h2; cases h2
      · exact h'
    refine ⟨key.1, ?_⟩
    have hne : n ≠ s.me := fun e => by have := key.1; rw [e, h.own] at this; cases this
    rcases key.2 with e | e
    · cases hp : c.pumpSet with
      | true => exact Or.inl ⟨hp, e.symm⟩
      | false => exact absurd (e.trans (ht.1 hp)) hne
    · cases hp : c.srcSet with
      | true => exact Or.inr ⟨hp, e.symm⟩
      | false => exact absurd (e.trans (ht.2 hp)) hne
  · intro hflag; rw [hfr.2.2.2.2] at hflag; cases hflag
  · rw [hfr.1, hfr.2.2.1]; exact h.own
  · rw [hfr.2.2.2.1]; exact h.noInitial

theorem inv_initDefault (s : St) (h : Inv s) : Inv (initDefault s) ∧ (∀ n, (initDefault s).reg n = false) ∧
    (initDefault s).flag = false := by
  have e : initDefault s = { s with reg := fun _ => false, flag := false, cfg := defaults s s.cfg } := by
    unfold initDefault; rw [h.noInitial]
  rw [e]
  exact ⟨⟨(fun _ h' => by cases h'), (fun h' => by cases h'), h.own, h.noInitial⟩, fun _ => rfl, rfl⟩

theorem inv_load (s : St) (c : Option Cfg) (h : Inv s) : Inv (load s c) := by
  have ⟨hi, hr, hf⟩ := inv_initDefault s h
  cases c with
  | none => exact hi
  | some c =>
    refine ⟨?_, ?_, hi.own, hi.noInitial⟩
    · intro n hn; exact absurd (hn.symm.trans (hr n)) (by decide)
    · intro hflag; exact absurd (hflag.symm.trans hf) (by decide)

theorem inv_setPump (s : St) (n : Nat) (h : Inv s) : Inv (setPump s n) := by
  have hnote : notePump s n = none := by unfold notePump; rw [h.noInitial]
  unfold setPump
  split
  · exact ⟨h.sound, h.complete, h.own, hnote⟩
  · have hfr := move_frame s s.cfg.pumpNo n
    refine ⟨?_, ?_, ?_, hnote⟩
    · intro k hk
      show (move s s.cfg.pumpNo n).agg k = true ∧ _
      rw [hfr.1]
      rcases (move_reg s s.cfg.pumpNo n k).mp hk with ⟨h1, h2⟩ | ⟨h1, h2, h3⟩
      · have ⟨ha, hu⟩ := h.sound k h1
        refine ⟨ha, ?_⟩
        rcases hu with ⟨_, hu⟩ | hu
        · rcases h2 with h2 | h2
          · exact absurd hu.symm h2
          · rw [ha] at h2; cases h2
        · exact Or.inr hu
      · subst h1; exact ⟨h3, Or.inl ⟨bne_iff_ne.mpr h2, rfl⟩⟩
    · intro hflag; exact absurd (hflag.symm.trans hfr.2.2) (by decide)
    · show (move s s.cfg.pumpNo n).agg (move s s.cfg.pumpNo n).me = false
      rw [hfr.1, hfr.2.1]; exact h.own

theorem inv_setSrc (s : St) (n : Nat) (h : Inv s) : Inv (setSrc s n) := by
  have hnote : noteSrc s n = none := by unfold noteSrc; rw [h.noInitial]
  unfold setSrc
  split
  · exact ⟨h.sound, h.complete, h.own, hnote⟩
  · have hfr := move_frame s s.cfg.srcNo n
    refine ⟨?_, ?_, ?_, hnote⟩
    · intro k hk
      show (move s s.cfg.srcNo n).agg k = true ∧ _
      rw [hfr.1]
      rcases (move_reg s s.cfg.srcNo n k).mp hk with ⟨h1, h2⟩ | ⟨h1, h2, h3⟩
      · have ⟨ha, hu⟩ := h.sound k h1
        refine ⟨ha, ?_⟩
        rcases hu with hu | ⟨_, hu⟩
        · exact Or.inl hu
        · rcases h2 with h2 | h2
          · exact absurd hu.symm h2
          · rw [ha] at h2; cases h2
      · subst h1; exact ⟨h3, Or.inr ⟨bne_iff_ne.mpr h2, rfl⟩⟩
    · intro hflag; exact absurd (hflag.symm.trans hfr.2.2) (by decide)
    · show (move s s.cfg.srcNo n).agg (move s s.cfg.srcNo n).me = false
      rw [hfr.1, hfr.2.1]; exact h.own

theorem inv_relay (s : St) (n : Nat) (b : Bool) (hn : n ≠ s.me) (hu : b = false → ¬ Uses s.cfg n) (h : Inv s) :
    Inv (relayFn s n b) := by
  unfold relayFn
  cases b with
  | true =>
    rw [if_pos rfl]
    refine ⟨?_, h.complete, ?_, h.noInitial⟩
    · intro k hk
      refine ⟨?_, (h.sound k hk).2⟩
      show put s.agg n true k = true
      by_cases e : k = n
      · rw [e, put_self]
      · rw [put_other _ _ _ _ e]; exact (h.sound k hk).1
    · show put s.agg n true s.me = false
      rw [put_other _ _ _ _ (Ne.symm hn)]; exact h.own
  | false =>
    rw [if_neg Bool.false_ne_true]
    refine ⟨?_, ?_, ?_, h.noInitial⟩
    · intro k hk
      have hk' : put s.reg n false k = true := hk
      have e : k ≠ n := by intro e; rw [e, put_self] at hk'; cases hk'
      rw [put_other _ _ _ _ e] at hk'
      refine ⟨?_, (h.sound k hk').2⟩
      show put s.agg n false k = true
      rw [put_other _ _ _ _ e]; exact (h.sound k hk').1
    · intro hf k hk
      show put s.reg n false k = true
      rw [put_other _ _ _ _ (fun e => hu rfl (by rw [← e]; exact hk))]; exact h.complete hf k hk
    · show put s.agg n false s.me = false
      rw [put_other _ _ _ _ (Ne.symm hn)]; exact h.own

theorem inv_step (s : St) (o : Op) (hc : Calm s o) (h : Inv s) : Inv (step s o) := by
  cases o with
  | tick => exact inv_tick s h
  | accept c => exact inv_accept s c hc h
  | change => exact (inv_initDefault s h).1
  | load c => exact inv_load s c h
  | setPump n => exact inv_setPump s n h
  | setSrc n => exact inv_setSrc s n h
  | relay n b =>
    cases b with
    | true => exact inv_relay s n true hc (fun h' => by cases h') h
    | false => exact inv_relay s n false hc.1 (fun _ => hc.2) h
  | enableInitial => exact hc.elim
  | init => exact ⟨h.sound, h.complete, h.own, h.noInitial⟩

theorem inv_run (ops : List Op) : ∀ (s : St), CalmRun s ops → Inv s → Inv (run s ops) := by
  induction ops with
  | nil => exact fun s _ h => h
  | cons o os ih => exact fun s hc h => ih (step s o) hc.2 (inv_step s o hc.1 h)

theorem known_of_inv (s : St) (h : Inv s) : Known (tick s) := by
  have hi := inv_tick s h
  intro n ha
  refine ⟨fun hr => (hi.sound n hr).2, fun hu => ?_⟩
  cases hf : s.flag with
  | true =>
    have e : tick s = s := by unfold tick; rw [hf, if_pos rfl]
    rw [e] at hu ⊢; exact h.complete hf n hu
  | false =>
    rw [(tick_frame s).1] at ha
    rw [(tick_frame s).2.1] at hu
    exact (tick_reg s hf n).mpr (Or.inr ⟨ha, hu⟩)

/-- In every history of setting up, loading, restarting of the configuration, changes of function,
configurations from the server or the page in which an unused switch carries the thermostat's own
number, and relays getting or losing the function of a pump or source while the thermostat does not use
them: a second after the last event every pump and source relay has the thermostat on its list exactly
if the thermostat's configuration names that relay.  Missing from the full claim `AlwaysKnown`: the
excluded events, each of which refutes it below. -/
theorem known_partial (me : Nat) (ops : List Op) (h : CalmRun { me := me } ops) : Known (tick (run { me := me } ops)) :=
  known_of_inv _ (inv_run ops _ h (inv_fresh me))

/-- Between the ticks too, no relay is ever held on by a thermostat that does not use it. -/
theorem never_a_stranger_partial (me : Nat) (ops : List Op) (h : CalmRun { me := me } ops) (n : Nat)
    (hr : (run { me := me } ops).reg n = true) : Uses (run { me := me } ops).cfg n :=
  ((inv_run ops _ h (inv_fresh me)).sound n hr).2

/-- The set-up of a usual device: thermostat on channel 2, pump on 3, source on 4; the server later
exchanges them, then drops the source. -/
def usual : List Op := [.setPump 3, .setSrc 4, .relay 3 true, .relay 4 true, .load none, .init, .tick,
  .accept { pumpSet := true, pumpNo := 4, srcSet := true, srcNo := 3 }, .tick,
  .accept { pumpSet := true, pumpNo := 4, srcSet := false, srcNo := 2 }]

example : CalmRun { me := 2 } usual := by
  unfold usual
  repeat' (first | exact trivial | constructor)
  all_goals first | decide | (intro h; exact absurd h (by decide)) | (intro _; rfl) | skip

example : (tick (run { me := 2 } usual)).reg 4 = true ∧ (tick (run { me := 2 } usual)).reg 3 = false := by decide +kernel

/-! ## A relay that stops being a pump and becomes one again -/

/-- The same thermostat `k` seconds later. -/
def ticks : Nat → St → St
  | 0, s => s
  | k + 1, s => ticks k (tick s)

theorem ticks_registered (k : Nat) (s : St) (h : s.flag = true) : ticks k s = s := by
  induction k with
  | zero => rfl
  | succ k ih => show ticks k (tick s) = s; rw [show tick s = s by unfold tick; rw [h, if_pos rfl]]; exact ih

/-- For every thermostat that has registered with its relays: if the server changes the function of one
of them to something else and back, the relay never hears of the thermostat again, however long one
waits. -/
theorem lost_for_good (s : St) (h : s.flag = true) (n k : Nat) :
    (ticks k (relayFn (relayFn s n false) n true)).agg n = true ∧
    (ticks k (relayFn (relayFn s n false) n true)).reg n = false ∧
    (ticks k (relayFn (relayFn s n false) n true)).cfg = s.cfg := by
  have e : relayFn (relayFn s n false) n true =
      { s with agg := put (put s.agg n false) n true, reg := put s.reg n false } := rfl
  rw [ticks_registered k _ (by rw [e]; exact h), e]
  exact ⟨put_self _ _ _, put_self _ _ _, rfl⟩

/-- A history in which the pump of a thermostat becomes a light switch and a pump again. -/
def lost : List Op := [.relay 3 true, .load none, .init, .setPump 3, .tick, .relay 3 false, .tick, .relay 3 true]

theorem function_and_back_violation : ¬ AlwaysKnown := by
  intro h
  have := (h 2 lost (by decide +kernel) 3 (by decide +kernel)).mpr (by decide +kernel)
  revert this; decide +kernel

/-! ## A configuration in which the pump is not used -/

/-- For every thermostat and every accepted configuration: the thermostat is registered with the relay
whose number stands in the pump field and in the source field, used or not. -/
theorem registered_by_number (s : St) (c : Cfg) :
    (s.agg c.pumpNo = true → (accept s c).reg c.pumpNo = true) ∧ (s.agg c.srcNo = true → (accept s c).reg c.srcNo = true) :=
  ⟨fun h => (accept_reg s c _).mpr (Or.inr ⟨h, Or.inl rfl⟩), fun h => (accept_reg s c _).mpr (Or.inr ⟨h, Or.inr rfl⟩)⟩

/-- A configuration without pump and source, with zeroes in the number fields, on a device whose channel
0 is a pump. -/
def zeroes : List Op := [.relay 0 true, .load none, .init, .tick, .accept {}]

/-- The thermostat uses no pump, and the pump on channel 0 follows it. -/
theorem unused_pump_violation : ¬ AlwaysKnown := by
  intro h
  have := (h 2 zeroes (by decide +kernel) 0 (by decide +kernel)).mp (by decide +kernel)
  revert this; decide +kernel

/-- Switching the use of the pump off and leaving its number in place does not end its registration. -/
def switchedOff : List Op := [.relay 3 true, .load none, .init,
  .accept { pumpSet := true, pumpNo := 3, srcSet := false, srcNo := 2 }, .tick,
  .accept { pumpSet := false, pumpNo := 3, srcSet := false, srcNo := 2 }]

theorem switched_off_violation : ¬ AlwaysKnown := by
  intro h
  have := (h 2 switchedOff (by decide +kernel) 3 (by decide +kernel)).mp (by decide +kernel)
  revert this; decide +kernel

/-- A restart with the same configuration in the storage ends it: the two runs have the same
configuration and a different pump. -/
theorem restart_differs : (tick (run { me := 2 } switchedOff)).cfg =
      (tick (run { me := 2 } [.relay 3 true, .load (some (run { me := 2 } switchedOff).cfg), .init])).cfg ∧
    (tick (run { me := 2 } switchedOff)).reg 3 = true ∧
    (tick (run { me := 2 } [.relay 3 true, .load (some (run { me := 2 } switchedOff).cfg), .init])).reg 3 = false := by
  decide +kernel

/-! ## An initial configuration -/

/-- For every thermostat with an initial configuration that has registered with its relays: a change of
its function puts the initial relays into the configuration and leaves the registrations as they were,
for good. -/
theorem initial_keeps_old (s : St) (c : Cfg) (hi : s.initial = some c) (hf : s.flag = true) (k : Nat) :
    (ticks k (initDefault s)).cfg = c ∧ (ticks k (initDefault s)).reg = s.reg := by
  have e : initDefault s = { s with cfg := c } := by unfold initDefault; rw [hi]
  rw [ticks_registered k _ (by rw [e]; exact hf), e]
  exact ⟨rfl, rfl⟩

/-- Initial pump on channel 3; the server moves it to channel 4, then changes the thermostat's function. -/
def initialPump : List Op := [.enableInitial, .setPump 3, .relay 3 true, .relay 4 true, .load none, .init, .tick,
  .accept { pumpSet := true, pumpNo := 4, srcSet := false, srcNo := 2 }, .tick, .change]

/-- Its configuration names the pump on channel 3 and the one on channel 4 follows it. -/
theorem initial_violation : ¬ AlwaysKnown := by
  intro h
  have := (h 2 initialPump (by decide +kernel) 3 (by decide +kernel)).mpr (by decide +kernel)
  revert this; decide +kernel

example : (tick (run { me := 2 } initialPump)).reg 4 = true ∧ (tick (run { me := 2 } initialPump)).cfg.pumpNo = 3 := by
  decide +kernel

/-! ## Setting the pump -/

/-- **Spec.**  Setting the pump to a channel makes the thermostat use it, and setting it to the thermostat
itself makes it use none. -/
abbrev PumpObeyed (s : St) (n : Nat) : Prop :=
  (n ≠ s.me → (setPump s n).cfg.pumpSet = true ∧ (setPump s n).cfg.pumpNo = n) ∧
  (n = s.me → (setPump s n).cfg.pumpSet = false)

/-- **Spec.**  The same for the source. -/
abbrev SrcObeyed (s : St) (n : Nat) : Prop :=
  (n ≠ s.me → (setSrc s n).cfg.srcSet = true ∧ (setSrc s n).cfg.srcNo = n) ∧
  (n = s.me → (setSrc s n).cfg.srcSet = false)

/-- **Full claim.** -/
def AlwaysObeyed : Prop := ∀ (me : Nat) (ops : List Op) (n : Nat), (∀ o ∈ ops, Sane me o) →
  PumpObeyed (run { me := me } ops) n ∧ SrcObeyed (run { me := me } ops) n

/-- The setters obey unless the number is already in the configuration; they leave the other switch
alone and, after the start, the defaults too. -/
theorem obeyed_partial (s : St) (n : Nat) :
    (s.cfg.pumpNo ≠ n → PumpObeyed s n ∧ (setPump s n).cfg.srcSet = s.cfg.srcSet ∧ (setPump s n).cfg.srcNo = s.cfg.srcNo ∧
      (setPump s n).dPump = (if s.initDone then s.dPump else some n)) ∧
    (s.cfg.srcNo ≠ n → SrcObeyed s n ∧ (setSrc s n).cfg.pumpSet = s.cfg.pumpSet ∧ (setSrc s n).cfg.pumpNo = s.cfg.pumpNo ∧
      (setSrc s n).dSrc = (if s.initDone then s.dSrc else some n)) := by
  constructor
  · intro h
    unfold PumpObeyed setPump
    rw [if_neg h]
    exact ⟨⟨fun hn => ⟨bne_iff_ne.mpr hn, rfl⟩, fun hn => bne_eq_false_iff_eq.mpr hn⟩, rfl, rfl, rfl⟩
  · intro h
    unfold SrcObeyed setSrc
    rw [if_neg h]
    exact ⟨⟨fun hn => ⟨bne_iff_ne.mpr hn, rfl⟩, fun hn => bne_eq_false_iff_eq.mpr hn⟩, rfl, rfl, rfl⟩

example : PumpObeyed { me := 2 } 3 ∧ PumpObeyed (run { me := 2 } usual) 2 := by decide +kernel

/-- For every thermostat whose configuration carries the number already: the setter changes nothing in
the configuration. -/
theorem same_number_ignored (s : St) : (setPump s s.cfg.pumpNo).cfg = s.cfg ∧ (setSrc s s.cfg.srcNo).cfg = s.cfg := by
  unfold setPump setSrc
  rw [if_pos rfl, if_pos rfl]
  exact ⟨rfl, rfl⟩

/-- A new thermostat cannot be given the pump on channel 0. -/
theorem channel_zero_violation : ¬ AlwaysObeyed := by
  intro h
  have := ((h 2 [] 0 (by intro o ho; cases ho)).1.1 (by decide)).1
  revert this; decide +kernel

/-! ## The defaults -/

/-- **Spec.**  The relays of the configuration after a change of function are those of the set-up. -/
abbrev SetUp (s : St) (p : Nat) (c : Cfg) : Prop := c.pumpSet = (p != s.me) ∧ (p ≠ s.me → c.pumpNo = p)

/-- **Full claim.**  The set-up chose pump `p` (the thermostat itself for none); after any history and a
change of the function, the configuration has that pump. -/
def DefaultKept : Prop := ∀ (me p : Nat) (ops : List Op), (∀ o ∈ ops, Sane me o) → (∀ o ∈ ops, o ≠ .enableInitial) → p ≠ 0 →
  SetUp (run { me := me } ([.setPump p, .init] ++ ops)) p (initDefault (run { me := me } ([.setPump p, .init] ++ ops))).cfg

theorem late_frame (o : Op) (s : St) (hi : s.initDone = true) (hn : s.initial = none) (ho : o ≠ .enableInitial) :
    (step s o).initDone = true ∧ (step s o).initial = none ∧ (step s o).dPump = s.dPump ∧ (step s o).me = s.me := by
  have hd : (initDefault s) = { s with reg := fun _ => false, flag := false, cfg := defaults s s.cfg } := by
    unfold initDefault; rw [hn]
  cases o with
  | tick =>
    show (tick s).initDone = true ∧ (tick s).initial = none ∧ (tick s).dPump = s.dPump ∧ (tick s).me = s.me
    unfold tick registerIf register
    dsimp only
    repeat' split
    all_goals exact ⟨hi, hn, rfl, rfl⟩
  | accept c =>
    show (accept s c).initDone = true ∧ (accept s c).initial = none ∧ (accept s c).dPump = s.dPump ∧ (accept s c).me = s.me
    unfold accept unregisterIf unregister register
    dsimp only
    repeat' split
    all_goals exact ⟨hi, hn, rfl, rfl⟩
  | change => show (initDefault s).initDone = true ∧ _; rw [show step s .change = initDefault s from rfl, hd]; exact ⟨hi, hn, rfl, rfl⟩
  | load c =>
    cases c with
    | none => rw [show step s (.load none) = initDefault s from rfl, hd]; exact ⟨hi, hn, rfl, rfl⟩
    | some c => rw [show step s (.load (some c)) = { initDefault s with cfg := c } from rfl, hd]; exact ⟨hi, hn, rfl, rfl⟩
  | setPump n =>
    show (setPump s n).initDone = true ∧ (setPump s n).initial = none ∧ (setPump s n).dPump = s.dPump ∧ (setPump s n).me = s.me
    have hnote : notePump s n = none := by unfold notePump; rw [hn]
    unfold setPump
    rw [hnote]
    split
    · exact ⟨hi, rfl, rfl, rfl⟩
    · unfold move unregister register
      dsimp only
      repeat' split
      all_goals first | exact ⟨hi, rfl, rfl, rfl⟩ | (exfalso; simp_all; done)
  | setSrc n =>
    show (setSrc s n).initDone = true ∧ (setSrc s n).initial = none ∧ (setSrc s n).dPump = s.dPump ∧ (setSrc s n).me = s.me
    have hnote : noteSrc s n = none := by unfold noteSrc; rw [hn]
    unfold setSrc
    rw [hnote]
    split
    · exact ⟨hi, rfl, rfl, rfl⟩
    · unfold move unregister register
      dsimp only
      repeat' split
      all_goals first | exact ⟨hi, rfl, rfl, rfl⟩ | (exfalso; simp_all; done)
  | relay n b => cases b <;> exact ⟨hi, hn, rfl, rfl⟩
  | enableInitial => exact absurd rfl ho
  | init => exact ⟨rfl, hn, rfl, rfl⟩

theorem late_run (ops : List Op) : ∀ (s : St), s.initDone = true → s.initial = none → (∀ o ∈ ops, o ≠ .enableInitial) →
    (run s ops).initial = none ∧ (run s ops).dPump = s.dPump ∧ (run s ops).me = s.me := by
  induction ops with
  | nil => exact fun s _ h _ => ⟨h, rfl, rfl⟩
  | cons o os ih =>
    intro s h1 h2 h3
    have ⟨a, b, c, d⟩ := late_frame o s h1 h2 (h3 o List.mem_cons_self)
    have ⟨e, f, g⟩ := ih (step s o) a b (fun x hx => h3 x (List.mem_cons_of_mem _ hx))
    exact ⟨e, f.trans c, g.trans d⟩

/-- The set-up chose the pump on channel `p`, not 0 and not the thermostat itself: after any later history
and a change of the function the configuration has that pump.  Missing from `DefaultKept`: "no pump". -/
theorem default_kept_partial (me p : Nat) (ops : List Op) (hp : p ≠ 0) (hm : p ≠ me) (ho : ∀ o ∈ ops, o ≠ .enableInitial) :
    SetUp (run { me := me } ([.setPump p, .init] ++ ops)) p (initDefault (run { me := me } ([.setPump p, .init] ++ ops))).cfg := by
  have e : run { me := me } ([Op.setPump p, .init] ++ ops) = run (run { me := me } [Op.setPump p, .init]) ops := by
    unfold run; rw [List.foldl_append]
  rw [e]
  have hb : (run { me := me } [Op.setPump p, .init]).initDone = true ∧ (run { me := me } [Op.setPump p, .init]).initial = none ∧
      (run { me := me } [Op.setPump p, .init]).dPump = some p ∧ (run { me := me } [Op.setPump p, .init]).me = me := by
    show (setPump { me := me } p |> fun s : St => { s with initDone := true }).initDone = true ∧ (setPump { me := me } p).initial = none ∧
      (setPump { me := me } p).dPump = some p ∧ (setPump { me := me } p).me = me
    unfold setPump
    rw [if_neg (Ne.symm hp)]
    exact ⟨rfl, rfl, rfl, (move_frame _ _ _).2.1⟩
  have ⟨h1, h2, h3⟩ := late_run ops _ hb.1 hb.2.1 ho
  rw [hb.2.2.1] at h2
  rw [hb.2.2.2] at h3
  generalize run (run { me := me } [Op.setPump p, .init]) ops = s at *
  have hd : (initDefault s).cfg = defaults s s.cfg := by unfold initDefault; rw [h1]
  have hw : withDefault s.me s.dPump (s.cfg.pumpSet, s.cfg.pumpNo) = (true, p) := by
    rw [h2, h3]; exact if_neg hm
  rw [hd]
  unfold SetUp defaults
  dsimp only
  rw [hw, h3]
  exact ⟨(bne_iff_ne.mpr hm).symm, fun _ => rfl⟩

example : SetUp (run { me := 2 } ([.setPump 3, .init] ++ usual)) 3 (initDefault (run { me := 2 } ([.setPump 3, .init] ++ usual))).cfg := by
  decide +kernel

/-- A set-up that chose no pump; the server sets one, then changes the function: the configuration says
that a pump is used, on the thermostat's own channel. -/
theorem no_pump_default_violation : ¬ DefaultKept := by
  intro h
  have := (h 2 2 [.accept { pumpSet := true, pumpNo := 4, srcSet := false, srcNo := 2 }] (by decide +kernel) (by decide +kernel) (by decide)).1
  revert this; decide +kernel

end Verif.Aggregator.Use
