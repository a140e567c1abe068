import Verif.Srpc.ConnLive

/-!
# C55, third part: a silent server is noticed, a healthy connection is kept
-/

namespace Verif.Srpc

/-- The time at which the last message was read, if any. -/
def heard : Option Nat → List Op → List Out → Option Nat
  | r, op :: ops, o :: os => heard (if o.got = [] then r else op.finish) ops os
  | r, _, _ => r

/-- The stored time of the last message is that of the last message read. -/
def Hears (u : Nat) (r : Option Nat) (s : St) : Prop :=
  s.reg = .ok → ∃ R, r = some R ∧ R ≤ u ∧ s.lastResp = clk R

theorem talk_hears {t : Nat} {e : Env} {s s' : St} {o o' : Out} {r : Option Nat}
    (hs : Hears t r s) (h : talk t e s o = some (s', o')) :
    Hears (t + e.busy) (if o'.got = [] then r else some (t + e.busy)) s' := by
  intro hok
  have hg := (talk_out h).2.1
  rw [hg]
  unfold talk at h
  split at h
  · exact absurd h (by simp)
  split at h
  · exact absurd h (by simp)
  rename_i s1 h1
  have sm := receiveAll_same h1
  split at h
  · simp only [Option.some.injEq, Prod.mk.injEq] at h
    rw [← h.1] at hok
    exact Reg.noConfusion hok
  · simp only [Option.some.injEq] at h
    have hs' := congrArg (fun p => p.1) h
    dsimp only at hs'
    have hlast : s'.lastResp = s1.lastResp ∧ s1.reg = .ok := by
      rw [← hs'] at hok ⊢
      unfold proceed at hok ⊢
      split at hok
      · exact Reg.noConfusion hok
      · rename_i hh
        split at hok
        · exact Reg.noConfusion hok
        · rw [hh] at hok; exact Reg.noConfusion hok
      · rename_i hh
        unfold registered
        refine ⟨?_, hh⟩
        split
        · rfl
        · split <;> rfl
      · exact Reg.noConfusion hok
    split
    · rename_i hm
      have e1 := sm.2.2 hm
      obtain ⟨R, q1, q2, q3⟩ := hs (by rw [← e1]; exact hlast.2)
      exact ⟨R, q1, by omega, by rw [hlast.1, e1]; exact q3⟩
    · rename_i hm
      exact ⟨_, rfl, Nat.le_refl _, by rw [hlast.1]; exact sm.2.1 hm⟩

theorem pass_hears {u t : Nat} {e : Env} {s s' : St} {o : Out} {r : Option Nat} (hut : u ≤ t)
    (hs : Hears u r s) (h : pass t e s = some (s', o)) :
    Hears (t + e.busy) (if o.got = [] then r else some (t + e.busy)) s' := by
  unfold pass at h
  split at h
  · simp only [Option.some.injEq, Prod.mk.injEq] at h
    rw [← h.1, ← h.2]
    intro hok
    obtain ⟨R, q1, q2, q3⟩ := hs hok
    exact ⟨R, q1, by omega, q3⟩
  · unfold awake at h
    dsimp only at h
    split at h
    · refine talk_hears ?_ h
      intro hok
      obtain ⟨R, q1, q2, q3⟩ := hs hok
      exact ⟨R, q1, by omega, q3⟩
    · unfold offline at h
      split at h
      · simp only [Option.some.injEq, Prod.mk.injEq] at h
        rw [← h.1]
        intro hok
        exact Reg.noConfusion hok
      · rename_i hr
        split at h
        · refine talk_hears ?_ h
          intro hok
          exact absurd (show s.reg ≠ .no by
            have : s.reg = .ok := hok
            rw [this]; decide) hr
        · simp only [Option.some.injEq, Prod.mk.injEq] at h
          rw [← h.1]
          intro hok
          exact Reg.noConfusion hok

theorem run_hears {ops : List Op} : ∀ {u r s s' os}, Timed u ops → Hears u r s →
    run ops s = some (s', os) → Hears (endTime u ops) (heard r ops os) s' := by
  induction ops with
  | nil =>
    intro u r s s' os _ hs h
    simp only [run, Option.some.injEq, Prod.mk.injEq] at h
    rw [← h.1, ← h.2]
    exact hs
  | cons op ops ih =>
    intro u r s s' os ht hs h
    simp only [run] at h
    split at h
    · exact absurd h (by simp)
    · rename_i s1 o h1
      split at h
      · exact absurd h (by simp)
      · rename_i s2 os2 h2
        simp only [Option.some.injEq, Prod.mk.injEq] at h
        rw [← h.1, ← h.2]
        simp only [heard, endTime]
        refine ih ht.2 ?_ h2
        cases op with
        | pass t e => exact pass_hears (ht.1 t rfl) hs h1
        | wrote t =>
          have := ht.1 t rfl
          simp only [step, Option.some.injEq, Prod.mk.injEq] at h1
          rw [← h1.1, ← h1.2]
          intro hok
          obtain ⟨R, q1, q2, q3⟩ := hs hok
          exact ⟨R, q1, by show R ≤ t; omega, q3⟩
        | down =>
          simp only [step, Option.some.injEq, Prod.mk.injEq] at h1
          rw [← h1.1]
          intro hok
          exact Reg.noConfusion hok
        | timeout n =>
          simp only [step, Option.some.injEq, Prod.mk.injEq] at h1
          rw [← h1.1, ← h1.2]
          intro hok
          exact hs hok

/-- How the pass of a device that stays registered ends. -/
theorem pass_ready {t : Nat} {e : Env} {s s' : St} {o : Out} (hs : Good s) (hr : s.reg = .ok)
    (h : pass t e s = some (s', o)) :
    (s'.reg = .ok → s.up = true ∧ e.alive = true ∧
      ¬ since (clk (t + e.busy)) s'.lastResp / 1000 ≥ s'.timeout + 10) ∧
    (s'.reg ≠ .ok → s.up = false ∨ e.alive = false ∨ e.iterOk = false ∨ o.got ≠ [] ∧ .refused ∈ o.got ∨
      ∃ s1, receiveAll (t + e.busy) e.msgs { s with wait := 0, restart := false, lastIt := clk t } = some s1 ∧
        since (clk (t + e.busy)) s1.lastResp / 1000 ≥ s1.timeout + 10) := by
  have hw : s.wait = 0 := by
    rcases Nat.eq_zero_or_pos s.wait with q | q
    · exact q
    · have := hs.7 (by omega)
      rw [hr] at this
      exact Reg.noConfusion this
  unfold pass at h
  rw [if_neg (by rw [hw]; simp)] at h
  unfold awake at h
  have hst : stamp t { s with restart := false } = clk t := by
    unfold stamp
    rw [if_neg (show ¬ s.reg = .asked by rw [hr]; decide)]
  rw [hst] at h
  dsimp only at h
  split at h
  · rename_i hup
    simp only [Bool.and_eq_true] at hup
    have hg := (talk_out h).2.1
    unfold talk at h
    split at h
    · exact absurd h (by simp)
    split at h
    · exact absurd h (by simp)
    rename_i s1 h1
    split at h
    · rename_i hi
      simp only [Option.some.injEq, Prod.mk.injEq] at h
      rw [← h.1]
      exact ⟨fun hh => Reg.noConfusion hh, fun _ => .inr (.inr (.inl hi))⟩
    · simp only [Option.some.injEq] at h
      have hs' := congrArg (fun p => p.1) h
      dsimp only at hs'
      rw [← hs', hg]
      have rg := receiveAll_reg h1
      unfold proceed
      split
      · rename_i hh
        rcases rg with z | ⟨_, z | z⟩
        · rw [z] at hh
          have : s.reg = .no := hh
          rw [hr] at this; exact Reg.noConfusion this
        · rw [z.1] at hh; exact Reg.noConfusion hh
        · rw [z] at hh; exact Reg.noConfusion hh
      · rename_i hh
        rcases rg with z | ⟨_, z | z⟩
        · rw [z] at hh
          have : s.reg = .asked := hh
          rw [hr] at this; exact Reg.noConfusion this
        · rw [z.1] at hh; exact Reg.noConfusion hh
        · rw [z] at hh; exact Reg.noConfusion hh
      · rename_i hh
        unfold registered
        split
        · rename_i hsil
          exact ⟨fun hq => Reg.noConfusion hq, fun _ => .inr (.inr (.inr (.inr ⟨s1, h1, hsil⟩)))⟩
        · rename_i hsil
          split
          · exact ⟨fun _ => ⟨hup.1, hup.2, hsil⟩, fun hq => absurd hh hq⟩
          · exact ⟨fun _ => ⟨hup.1, hup.2, hsil⟩, fun hq => absurd hh hq⟩
      · rename_i hh
        refine ⟨fun hq => Reg.noConfusion hq, fun _ => .inr (.inr (.inr (.inl ?_)))⟩
        have key : ∀ (ms : List Msg) (q q' : St), receiveAll (t + e.busy) ms q = some q' →
            q.reg ≠ .refused → q'.reg = .refused → Msg.refused ∈ ms := by
          intro ms
          induction ms with
          | nil =>
            intro q q' hq hn hy
            simp only [receiveAll, Option.some.injEq] at hq
            rw [hq] at hn
            exact absurd hy hn
          | cons m ms ih =>
            intro q q' hq hn hy
            simp only [receiveAll] at hq
            split at hq
            · exact absurd hq (by simp)
            · rename_i q1 hq1
              by_cases hm : m = .refused
              · rw [hm]; exact List.mem_cons_self
              · refine List.mem_cons_of_mem _ (ih q1 q' hq ?_ hy)
                cases m <;> simp only [receive, setTimeout] at hq1 <;>
                  first
                  | (cases hq1; done)
                  | exact absurd rfl hm
                  | (injection hq1 with hq1; rw [← hq1]; first | exact hn | (intro hc; cases hc))
        have hmem := key _ _ _ h1 (show s.reg ≠ .refused by rw [hr]; decide) hh
        exact ⟨fun hc => (by rw [hc] at hmem; exact nomatch hmem), hmem⟩
  · rename_i hup
    have hup' : s.up = false ∨ e.alive = false := by
      simp only [Bool.and_eq_true] at hup
      cases h1 : s.up <;> cases h2 : e.alive <;> simp_all
    unfold offline at h
    rw [if_pos (show s.reg ≠ .no by rw [hr]; decide)] at h
    simp only [Option.some.injEq, Prod.mk.injEq] at h
    rw [← h.1]
    refine ⟨fun hh => Reg.noConfusion hh, fun _ => ?_⟩
    rcases hup' with z | z
    · exact .inl z
    · exact .inr (.inl z)

/-- **C55, a silent server is noticed.** When the last message of the server was read at `R`, then after
a pass that ends the activity timeout plus ten seconds later (or more, up to the 49 days of the
clock), the device no longer calls itself ready. -/
theorem silence_noticed {ops : List Op} {t : Nat} {e : Env} {s : St} {os : List Out} {R : Nat}
    (h : run (ops ++ [.pass t e]) {} = some (s, os)) (ht : Timed 0 (ops ++ [.pass t e]))
    (hR : heard none (ops ++ [.pass t e]) os = some R)
    (hlong : R + (s.timeout + 10) * 1000 ≤ t + e.busy) (hlt : t + e.busy < R + 2 ^ 32) :
    ready s = false := by
  have hh := run_hears (r := none) ht (fun hq => Reg.noConfusion hq) h
  obtain ⟨s1, o1, o2, q1, q2, hos⟩ := run_append h
  have g1 := run_good good_init q1
  simp only [run, step] at q2
  split at q2
  · exact absurd q2 (by simp)
  · rename_i s2 o q3
    simp only [Option.some.injEq, Prod.mk.injEq] at q2
    rw [q2.1] at q3
    unfold ready
    apply decide_eq_false
    intro hok
    obtain ⟨R', z1, _, z3⟩ := hh hok
    rw [hR] at z1
    injection z1 with z1
    rw [← z1] at z3
    by_cases hok1 : s1.reg = .ok
    · have := ((pass_ready g1 hok1 q3).1 hok).2.2
      rw [z3, since_clk_eq _ _ (by omega) (by omega)] at this
      omega
    · -- registered only now: by a message read in this pass
      have hg : o.got ≠ [] := by
        have hb := accepted_append (b := false) (fun hc => absurd hc hok1)
          (show run [.pass t e] s1 = some (s, [o]) by simp [run, step, q3]) hok
        simp only [accepted] at hb
        intro hc
        rw [hc] at hb
        simp at hb
      have hR2 : heard none (ops ++ [.pass t e]) os = some (t + e.busy) := by
        have key : ∀ (a : List Op) (r : Option Nat) (s0 s9 : St) (b : List Out),
            run a s0 = some (s9, b) → heard r (a ++ [.pass t e]) (b ++ [o]) = some (t + e.busy) := by
          intro a
          induction a with
          | nil =>
            intro r s0 s9 b hb
            simp only [run, Option.some.injEq, Prod.mk.injEq] at hb
            rw [← hb.2]
            simp [heard, hg, Op.finish]
          | cons op a ih =>
            intro r s0 s9 b hb
            simp only [run] at hb
            split at hb
            · exact absurd hb (by simp)
            · split at hb
              · exact absurd hb (by simp)
              · rename_i s8 os8 h8
                simp only [Option.some.injEq, Prod.mk.injEq] at hb
                rw [← hb.2]
                simp only [List.cons_append, heard]
                exact ih _ _ _ _ h8
        rw [hos, ← q2.2]
        exact key _ _ _ _ _ q1
      rw [hR] at hR2
      injection hR2 with hR2
      omega

/-- **C55, no connection is dropped early.** A device that was ready and is not ready after a pass has
lost the connection, had a communication failure, was refused, or has heard nothing for the activity
timeout plus ten seconds. -/
theorem drop_has_reason {ops : List Op} {t u : Nat} {e : Env} {s s' : St} {os : List Out} {o : Out}
    (h : run ops {} = some (s, os)) (ht : Timed 0 ops) (hu : endTime 0 ops = u) (hut : u ≤ t)
    (hr : ready s = true) (hp : pass t e s = some (s', o)) (hn : ready s' = false) :
    s.up = false ∨ e.alive = false ∨ e.iterOk = false ∨ .refused ∈ o.got ∨
      e.msgs = [] ∧ ∃ R, heard none ops os = some R ∧ R + (s.timeout + 10) * 1000 ≤ t + e.busy := by
  have hok : s.reg = .ok := by unfold ready at hr; exact of_decide_eq_true hr
  have hnok : s'.reg ≠ .ok := by unfold ready at hn; exact of_decide_eq_false hn
  obtain ⟨R, z1, z2, z3⟩ := run_hears (r := none) ht (fun hq => Reg.noConfusion hq) h hok
  rcases (pass_ready (run_good good_init h) hok hp).2 hnok with q | q | q | q | ⟨s1, q1, q2⟩
  · exact .inl q
  · exact .inr (.inl q)
  · exact .inr (.inr (.inl q))
  · exact .inr (.inr (.inr (.inl q.2)))
  · have sm := receiveAll_same q1
    by_cases hm : e.msgs = []
    · refine .inr (.inr (.inr (.inr ⟨hm, R, z1, ?_⟩)))
      have e1 := sm.2.2 hm
      rw [e1] at q2
      dsimp only at q2
      rw [z3] at q2
      have := since_clk_le (t + e.busy) R (by omega)
      omega
    · rw [sm.2.1 hm, since_clk_self] at q2
      omega

/-! ## A healthy connection -/

/-- The oldest ping that no message has followed yet, after a pass that ended at `now`. -/
def pendingAfter (now : Nat) (o : Out) (pending : Option Nat) : Option Nat :=
  let p := if o.got = [] then pending else none
  if o.pinged then some (p.getD now) else p

/-- A healthy connection: the connection stays open, the server sends messages of the ordinary kind, the
passes end at most `G` milliseconds after one another (the last one before the history ended at `u`),
and when a ping is older than `D` milliseconds, a message has arrived for the pass to read. -/
def Healthy (G D : Nat) : Nat → Option Nat → List Op → St → Prop
  | _, _, [], _ => True
  | u, p, .pass t e :: ops, s =>
    e.alive = true ∧ e.iterOk = true ∧ (∀ m ∈ e.msgs, m = .other) ∧ u ≤ t ∧ t + e.busy ≤ u + G ∧
      (∀ q, p = some q → q + D < t + e.busy → e.msgs ≠ []) ∧
      ∀ s' o, pass t e s = some (s', o) →
        Healthy G D (t + e.busy) (pendingAfter (t + e.busy) o p) ops s'
  | u, p, .wrote t :: ops, s => Healthy G D u p ops { s with lastSent := clk t }
  | _, _, .down :: _, _ => False
  | _, _, .timeout _ :: _, _ => False

/-- What holds between the passes of a healthy connection; `u` is the end of the last pass. -/
structure Kept (G u : Nat) (p : Option Nat) (s : St) : Prop where
  reg : s.reg = .ok
  up : s.up = true
  srpc : s.srpc = true
  wait : s.wait = 0
  lo : 6 ≤ s.timeout
  hi : s.timeout < 256
  ping : s.lastPing < 2 ^ 32
  resp : ∃ r, s.lastResp = clk r ∧ r ≤ u ∧
    match p with
    | some q => q ≤ u ∧ q ≤ r + (s.timeout - 5) * 1000 + 5000 + 2 * G
    | none => u < r + (s.timeout - 5) * 1000 ∨
      since (clk u) s.lastPing < 5000 ∧ u ≤ r + (s.timeout - 5) * 1000 + G + since (clk u) s.lastPing

theorem receiveAll_other {n ms} : ∀ {s : St}, (∀ m ∈ ms, m = Msg.other) →
    receiveAll n ms s = some (if ms = [] then s else { s with lastResp := clk n }) := by
  induction ms with
  | nil => intro s _; rfl
  | cons m ms ih =>
    intro s h
    have hm := h m List.mem_cons_self
    subst hm
    simp only [receiveAll, receive]
    rw [ih (fun m hm => h m (List.mem_cons_of_mem _ hm))]
    split <;> simp

theorem since_add' {u t x : Nat} (hx : x < 2 ^ 32) (hut : u ≤ t)
    (h : since (clk u) x + (t - u) < 2 ^ 32) : since (clk t) x = since (clk u) x + (t - u) := by
  unfold since clk at *
  omega

theorem kept_pass {G D u t : Nat} {p : Option Nat} {e : Env} {s : St} (hs : Kept G u p s)
    (hGD : 2 * G + D < 10000) (ha : e.alive = true) (hi : e.iterOk = true)
    (hm : ∀ m ∈ e.msgs, m = .other) (hut : u ≤ t) (hG : t + e.busy ≤ u + G)
    (hD : ∀ q, p = some q → q + D < t + e.busy → e.msgs ≠ []) :
    ∃ s' o, pass t e s = some (s', o) ∧ o.ret = true ∧
      Kept G (t + e.busy) (pendingAfter (t + e.busy) o p) s' := by
  obtain ⟨r, hr1, hr2, hr3⟩ := hs.resp
  have hlo := hs.lo
  have hhi := hs.hi
  have hping := hs.ping
  -- the state when the registered branch is entered
  have hpass : pass t e s = some (registered (t + e.busy)
      (if e.msgs = [] then { s with wait := 0, restart := false, lastIt := clk t }
       else { s with wait := 0, restart := false, lastIt := clk t, lastResp := clk (t + e.busy) })
      { got := e.msgs }) := by
    unfold pass
    rw [if_neg (by rw [hs.wait]; simp)]
    unfold awake
    have hst : stamp t { s with restart := false } = clk t := by
      unfold stamp
      rw [if_neg (show ¬ s.reg = .asked by rw [hs.reg]; decide)]
    rw [hst]
    dsimp only
    rw [if_pos (by rw [hs.up, ha]; rfl)]
    unfold talk
    rw [if_neg (by simp [hs.srpc]), receiveAll_other hm]
    dsimp only
    rw [if_neg (by simp [hi])]
    unfold proceed
    have hreg : (if e.msgs = [] then { s with wait := 0, restart := false, lastIt := clk t }
        else { s with wait := 0, restart := false, lastIt := clk t, lastResp := clk (t + e.busy) } : St).reg
          = .ok := by
      split <;> exact hs.reg
    rw [hreg]
  rw [hpass]
  -- silence at the end of this pass
  by_cases hms : e.msgs = []
  · rw [if_pos hms, hms]
    have hsil : t + e.busy - r < (s.timeout + 10) * 1000 := by
      cases hp : p with
      | some q =>
        rw [hp] at hr3
        have hq : ¬ q + D < t + e.busy := fun hc => hD q hp hc hms
        have h3 := hr3.2
        omega
      | none =>
        rw [hp] at hr3
        rcases hr3 with h3 | h3 <;> omega
    have heq : since (clk (t + e.busy)) (clk r) = t + e.busy - r :=
      since_clk_eq _ _ (by omega) (by omega)
    unfold registered
    rw [if_neg (show ¬ since (clk (t + e.busy)) s.lastResp / 1000 ≥ s.timeout + 10 by
      rw [hr1, heq]; omega)]
    split
    · -- a ping is sent
      refine ⟨_, _, rfl, rfl, ⟨hs.reg, hs.up, hs.srpc, rfl, hlo, hhi, clk_lt _, r, hr1, by omega, ?_⟩⟩
      cases hp : p with
      | some q =>
        rw [hp] at hr3
        simp only [pendingAfter]
        exact ⟨by have := hr3.1; show q ≤ _; omega, hr3.2⟩
      | none =>
        rw [hp] at hr3
        simp only [pendingAfter]
        refine ⟨Nat.le_refl _, ?_⟩
        show t + e.busy ≤ r + (s.timeout - 5) * 1000 + 5000 + 2 * G
        rcases hr3 with h3 | h3 <;> omega
    · rename_i hdue
      refine ⟨_, _, rfl, rfl, ⟨hs.reg, hs.up, hs.srpc, rfl, hlo, hhi, hping, r, hr1, by omega, ?_⟩⟩
      cases hp : p with
      | some q =>
        rw [hp] at hr3
        simp only [pendingAfter]
        exact ⟨by have := hr3.1; show q ≤ _; omega, hr3.2⟩
      | none =>
        rw [hp] at hr3
        simp only [pendingAfter]
        show t + e.busy < r + (s.timeout - 5) * 1000 ∨
          since (clk (t + e.busy)) s.lastPing < 5000 ∧
            t + e.busy ≤ r + (s.timeout - 5) * 1000 + G + since (clk (t + e.busy)) s.lastPing
        have hnd : ¬ (since (clk (t + e.busy)) s.lastPing ≥ 5000 ∧
            (t + e.busy - r) / 1000 ≥ (s.timeout + 2 ^ 32 - 5) % 2 ^ 32) := by
          intro hc
          apply hdue
          unfold pingDue
          simp only [Bool.and_eq_true, Bool.or_eq_true, decide_eq_true_eq]
          exact ⟨hc.1, .inl (by show since (clk (t + e.busy)) s.lastResp / 1000 ≥ _
                                rw [hr1, heq]; exact hc.2)⟩
        have hsub : (s.timeout + 2 ^ 32 - 5) % 2 ^ 32 = s.timeout - 5 := by omega
        rw [hsub] at hnd
        rcases hr3 with h3 | ⟨h3, h4⟩
        · by_cases hc : t + e.busy < r + (s.timeout - 5) * 1000
          · exact .inl hc
          · right
            have : since (clk (t + e.busy)) s.lastPing < 5000 := by omega
            omega
        · have := since_add' hping (show u ≤ t + e.busy by omega) (by omega)
          rw [this] at hnd ⊢
          by_cases hc : t + e.busy < r + (s.timeout - 5) * 1000
          · exact .inl hc
          · right
            omega
  · rw [if_neg hms]
    unfold registered
    rw [if_neg (show ¬ since (clk (t + e.busy)) (clk (t + e.busy)) / 1000 ≥ s.timeout + 10 by
      rw [since_clk_self]; omega)]
    split
    · refine ⟨_, _, rfl, rfl, ⟨hs.reg, hs.up, hs.srpc, rfl, hlo, hhi, clk_lt _, t + e.busy, rfl, Nat.le_refl _, ?_⟩⟩
      simp only [pendingAfter]
      rw [if_neg hms]
      exact ⟨Nat.le_refl _, by show t + e.busy ≤ _; omega⟩
    · refine ⟨_, _, rfl, rfl, ⟨hs.reg, hs.up, hs.srpc, rfl, hlo, hhi, hping, t + e.busy, rfl, Nat.le_refl _, ?_⟩⟩
      simp only [pendingAfter]
      rw [if_neg hms]
      left
      show t + e.busy < t + e.busy + (s.timeout - 5) * 1000
      omega

/-- **C55, a healthy connection is kept.** On a connection on which the server answers every ping within
`D` milliseconds, and with passes at most `G` milliseconds apart, `2 G + D` below ten seconds, the device
stays registered and ready for ever, even if nobody ever has anything else to say. (Activity timeouts
from 6 to 255 seconds.) -/
theorem healthy_kept {G D : Nat} (hGD : 2 * G + D < 10000) {ops : List Op} : ∀ {u p s s' os},
    Kept G u p s → Healthy G D u p ops s → run ops s = some (s', os) → ready s' = true := by
  induction ops with
  | nil =>
    intro u p s s' os hs _ h
    simp only [run, Option.some.injEq, Prod.mk.injEq] at h
    rw [← h.1]
    unfold ready
    rw [hs.reg]
    rfl
  | cons op ops ih =>
    intro u p s s' os hs hh h
    simp only [run] at h
    split at h
    · exact absurd h (by simp)
    · rename_i s1 o h1
      split at h
      · exact absurd h (by simp)
      · rename_i s2 os2 h2
        simp only [Option.some.injEq, Prod.mk.injEq] at h
        rw [← h.1]
        cases op with
        | pass t e =>
          obtain ⟨a1, a2, a3, a4, a5, a6, a7⟩ := hh
          obtain ⟨s', o', q1, _, q3⟩ := kept_pass hs hGD a1 a2 a3 a4 a5 a6
          have h1' : pass t e s = some (s1, o) := h1
          rw [q1] at h1'
          simp only [Option.some.injEq, Prod.mk.injEq] at h1'
          rw [h1'.1, h1'.2] at q3
          exact ih q3 (a7 s1 o h1) h2
        | wrote t =>
          simp only [step, Option.some.injEq, Prod.mk.injEq] at h1
          rw [← h1.1] at h2
          exact ih (s := { s with lastSent := clk t }) ⟨hs.1, hs.2, hs.3, hs.4, hs.5, hs.6, hs.7, hs.8⟩ hh h2
        | down => exact absurd hh id
        | timeout n => exact absurd hh id

/-- The state right after a registration satisfies the premise of `healthy_kept`. -/
theorem kept_start {G t : Nat} {s : St} (hs : Good s) (hr : s.reg = .ok) (hup : s.up = true)
    (hlo : 6 ≤ s.timeout) (hresp : s.lastResp = clk t) : Kept G t none s := by
  refine ⟨hr, hup, hs.srpc hup, ?_, hlo, hs.timeout, hs.lastPing, t, hresp, Nat.le_refl _, .inl (by omega)⟩
  rcases Nat.eq_zero_or_pos s.wait with q | q
  · exact q
  · have := hs.idle (by omega)
    rw [hr] at this
    exact Reg.noConfusion this

instance decPending (p : Option Nat) (n : Nat) (c : Prop) [Decidable c] (D : Nat) :
    Decidable (∀ q, p = some q → q + D < n → c) :=
  match p with
  | none => .isTrue (fun _ h => nomatch h)
  | some q => decidable_of_iff (q + D < n → c)
      ⟨fun h q' hq => by cases hq; exact h, fun h => h q rfl⟩

instance decHealthy (G D : Nat) : (u : Nat) → (p : Option Nat) → (ops : List Op) → (s : St) →
    Decidable (Healthy G D u p ops s)
  | _, _, [], _ => .isTrue trivial
  | u, p, .pass t e :: ops, s => by
    have : Decidable (∀ s' o, pass t e s = some (s', o) →
        Healthy G D (t + e.busy) (pendingAfter (t + e.busy) o p) ops s') :=
      match h : pass t e s with
      | none => .isTrue (fun _ _ hh => nomatch hh)
      | some (s1, o1) =>
        have := decHealthy G D (t + e.busy) (pendingAfter (t + e.busy) o1 p) ops s1
        decidable_of_iff (Healthy G D (t + e.busy) (pendingAfter (t + e.busy) o1 p) ops s1)
          ⟨fun hh s' o ho => by cases ho; exact hh, fun hh => hh s1 o1 rfl⟩
    unfold Healthy
    infer_instance
  | u, p, .wrote t :: ops, s => by
    unfold Healthy
    exact decHealthy G D u p ops _
  | _, _, .down :: _, _ => .isFalse id
  | _, _, .timeout _ :: _, _ => .isFalse id

/-! ## Concrete cases -/

/-- A device that connects, registers and is accepted after 200 ms. -/
def opening : List Op := [.pass 1000 {}, .pass 1100 {}, .pass 1200 { msgs := [.accepted] }]

/-- One quiet second after another from `t` on. -/
def quiet (t n : Nat) : List Op := (List.range n).map fun i => .pass (t + (i + 1) * 1000) {}

/-- The state of a device accepted at 1200 ms. -/
def opened : St := ((run opening {}).map (·.1)).getD {}

/-- The premises of `healthy_kept` in a concrete case: 26 quiet seconds during which a ping is sent, which
is answered two seconds later. -/
example : Kept 1000 1200 none opened ∧
    Healthy 1000 7000 1200 none (quiet 1200 26 ++ [.pass 28200 { msgs := [.other] }]) opened ∧
    ((run (quiet 1200 26) opened).map fun r => r.2.any (·.pinged)) = some true := by
  refine ⟨kept_start ?_ (by decide +kernel) (by decide +kernel) (by decide +kernel) (by decide +kernel),
    by decide +kernel, by decide +kernel⟩
  constructor <;> decide +kernel

/-- `silence_noticed` in a concrete case: 40 seconds after the only message. -/
example : heard none (opening ++ quiet 1200 39 ++ [.pass 41200 {}])
      (((run (opening ++ quiet 1200 39 ++ [.pass 41200 {}]) {}).map (·.2)).getD []) = some 1200 ∧
    ((run (opening ++ quiet 1200 39) {}).map fun r => ready r.1) = some true ∧
    ((run (opening ++ quiet 1200 39 ++ [.pass 41200 {}]) {}).map fun r => ready r.1) = some false := by
  decide +kernel

/-- `drop_has_reason`: the connection is lost. -/
example : ((run opening {}).map fun r => ready r.1) = some true ∧
    ((run (opening ++ [.pass 1300 { alive := false }]) {}).map fun r => ready r.1) = some false := by
  decide +kernel

/-- `attempts_paced`: the first two attempts of a device without server, 1000 ms apart. -/
example : ((run [.pass 5 { connects := false }, .pass 900 {}, .pass 1004 {}, .pass 1005 {}] {}).map
    fun r => r.2.map (·.attempt)) = some [some false, none, none, some true] := by
  decide +kernel

/-- `backoff`: the third attempt comes ten seconds after the second. -/
example : ((run [.pass 5 { connects := false }, .pass 1005 { connects := false }, .pass 11004 {},
      .pass 11005 {}] {}).map fun r => r.2.map (·.attempt)) =
    some [some false, some false, none, some true] := by
  decide +kernel

/-- `refusal_backoff`: refused at 1100 ms, next attempt at 11100 ms. -/
example : ((run [.pass 1000 {}, .pass 1100 { msgs := [.refused] }, .pass 11099 {}, .pass 11100 {}] {}).map
    fun r => r.2.map (·.attempt)) = some [some true, none, none, some true] := by
  decide +kernel

/-- `reconnects`: the connection is lost at 1300 ms, the attempt is made at 2300 ms. -/
example : ((run (opening ++ [.pass 1300 { alive := false }, .pass 2299 { alive := false },
      .pass 11300 { alive := false }]) {}).map fun r => r.2.map (·.attempt)) =
    some [some true, none, none, none, none, some true] := by
  decide +kernel

/-- `ready_honest`: accepted, dropped, connected again but not accepted yet. -/
example : ((run (opening ++ [.down, .pass 1300 {}, .pass 1400 {}]) {}).map fun r =>
      (ready r.1, accepted false (opening ++ [.down, .pass 1300 {}, .pass 1400 {}]) r.2)) = some (false, false) ∧
    ((run opening {}).map fun r => (ready r.1, accepted false opening r.2)) = some (true, true) := by
  decide +kernel

/-- `restart_every_six`: six failures, the sixth asks for a restart. -/
example : ((run ((List.range 6).map fun i => .pass (i * 10000) { connects := false }) {}).map
    fun r => r.2.map (·.restart)) = some [false, false, false, false, false, true] := by
  decide +kernel

/-! ## Violations -/

/-- The full claim about the result of a pass: it says "connected" only if the device is registered when
the pass is over. -/
def TrueMeansReady : Prop :=
  ∀ ops t e s s' os o, run ops {} = some (s, os) → pass t e s = some (s', o) → o.ret = true →
    ready s' = true

/-- C55 fails in this part: the pass that gives up a silent server still reports that the device is
connected, so that the elements run their connected part once more without a connection. -/
theorem true_after_timeout_violation : ¬ TrueMeansReady := by
  intro h
  have hr : run (opening ++ quiet 1200 39) {} =
      some (((run (opening ++ quiet 1200 39) {}).getD ({}, [])).1,
        ((run (opening ++ quiet 1200 39) {}).getD ({}, [])).2) := by decide +kernel
  have := h (opening ++ quiet 1200 39) 41200 {} _
    (disconnect { ((run (opening ++ quiet 1200 39) {}).getD ({}, [])).1 with lastIt := clk 41200 }) _
    { ret := true } hr (by decide +kernel) rfl
  revert this
  decide +kernel

/-- A pass that says "connected" has been registered, or has just given up a silent server. -/
theorem true_means_ready_partial {t : Nat} {e : Env} {s s' : St} {o : Out}
    (h : pass t e s = some (s', o)) (hr : o.ret = true) :
    ready s' = true ∨ s'.up = false ∧
      since (clk (t + e.busy)) s'.lastResp / 1000 ≥ s'.timeout + 10 := by
  have key : ∀ q o1, o1.ret = false → talk t e q o1 = some (s', o) → ready s' = true ∨ s'.up = false ∧
      since (clk (t + e.busy)) s'.lastResp / 1000 ≥ s'.timeout + 10 := by
    intro q o1 hq h
    unfold talk at h
    split at h
    · exact absurd h (by simp)
    split at h
    · exact absurd h (by simp)
    split at h
    · simp only [Option.some.injEq, Prod.mk.injEq] at h
      rw [← h.2] at hr
      simp only [hq] at hr
      exact absurd hr (by decide)
    · simp only [Option.some.injEq] at h
      have hs' := congrArg (fun p => p.1) h
      have ho' := congrArg (fun p => p.2) h
      dsimp only at hs' ho'
      rw [← ho'] at hr
      rw [← hs']
      unfold proceed at hr ⊢
      split at hr
      · simp only [hq] at hr; exact absurd hr (by decide)
      · split at hr <;> (simp only [hq] at hr; exact absurd hr (by decide))
      · rename_i hok
        unfold registered
        split
        · rename_i hsil
          exact .inr ⟨rfl, hsil⟩
        · split
          · exact .inl (decide_eq_true hok)
          · exact .inl (decide_eq_true hok)
      · simp only [hq] at hr; exact absurd hr (by decide)
  unfold pass at h
  split at h
  · simp only [Option.some.injEq, Prod.mk.injEq] at h
    rw [← h.2] at hr
    exact absurd hr (by decide)
  · unfold awake at h
    dsimp only at h
    split at h
    · exact key _ _ rfl h
    · unfold offline at h
      split at h
      · simp only [Option.some.injEq, Prod.mk.injEq] at h
        rw [← h.2] at hr
        exact absurd hr (by decide)
      · split at h
        · exact key _ _ rfl h
        · simp only [Option.some.injEq, Prod.mk.injEq] at h
          rw [← h.2] at hr
          exact Bool.noConfusion hr

/-- The full claim for any activity timeout the program may ask for: a connection whose server answers
every ping is kept. -/
def KeptForAnyTimeout : Prop :=
  ∀ n ops s' os, n < 2 ^ 32 → Healthy 1000 7000 1200 none ops (setTimeout n opened) →
    run ops (setTimeout n opened) = some (s', os) → ready s' = true

/-- C55 fails in this part: a program that asks for an activity timeout of 256 seconds gets one of 0
seconds. The device never sends a ping and drops a healthy connection after ten seconds without a
message. -/
theorem timeout_256_violation : ¬ KeptForAnyTimeout := by
  intro h
  have hr : run (quiet 1200 10) (setTimeout 256 opened) =
      some (((run (quiet 1200 10) (setTimeout 256 opened)).getD ({}, [])).1,
        ((run (quiet 1200 10) (setTimeout 256 opened)).getD ({}, [])).2) := by decide +kernel
  have := h 256 (quiet 1200 10) _ _ (by decide) (by decide +kernel) hr
  revert this
  decide +kernel

/-- C55 fails in this part: the reported time without connection, ten seconds for every failed attempt,
never passes 655350 seconds. A device told to reset itself after a longer time without connection never
does. -/
theorem fail_time_violation : ¬ ∀ n : Nat, ∃ k, ∀ ops s os, run ops {} = some (s, os) →
    (∀ o ∈ os, o.attempt ≠ some true) → k ≤ (attempts os).length → n ≤ failTime s := by
  intro h
  obtain ⟨k, hk⟩ := h 655351
  -- failed attempts, ten seconds apart
  have key : ∀ m : Nat, ∃ ops s os, run ops {} = some (s, os) ∧ (∀ o ∈ os, o.attempt ≠ some true) ∧
      (attempts os).length = m ∧ s.up = false ∧ s.reg = .no ∧ s.wait ≤ 10000 ∧ s.lastIt < 2 ^ 32 := by
    intro m
    induction m with
    | zero => exact ⟨[], {}, [], rfl, by simp, rfl, rfl, rfl, by decide, by decide⟩
    | succ m ih =>
      obtain ⟨ops, s, os, e1, e2, e3, e4, e5, e6, e7⟩ := ih
      have hp : pass (s.lastIt + 10000) { connects := false } s =
          some (connectFail { s with wait := 0, restart := false, up := false, srpc := false, lastIt := clk (s.lastIt + 10000) },
            { attempt := some false, restart := (connectFail { s with wait := 0, restart := false, up := false, srpc := false, lastIt := clk (s.lastIt + 10000) }).restart }) := by
        have hn : ¬ (s.wait ≠ 0 ∧ since (clk (s.lastIt + 10000)) s.lastIt < s.wait) := by
          intro hc
          have := hc.2
          unfold since clk at this
          omega
        unfold pass
        rw [if_neg hn]
        unfold awake
        rw [show stamp (s.lastIt + 10000) { s with restart := false } = clk (s.lastIt + 10000) from
          stamp_no e5]
        dsimp only
        rw [if_neg (by simp [e4])]
        unfold offline
        rw [if_neg (by simp [e5])]
        rfl
      refine ⟨ops ++ [.pass (s.lastIt + 10000) { connects := false }],
        connectFail { s with wait := 0, restart := false, up := false, srpc := false, lastIt := clk (s.lastIt + 10000) },
        os ++ [{ attempt := some false, restart := (connectFail { s with wait := 0, restart := false, up := false, srpc := false, lastIt := clk (s.lastIt + 10000) }).restart }],
        ?_, ?_, ?_, rfl, rfl, ?_, clk_lt (s.lastIt + 10000)⟩
      · have app : ∀ (a : List Op) (s0 : St) (b : List Out), run a s0 = some (s, b) →
            run (a ++ [.pass (s.lastIt + 10000) { connects := false }]) s0 = some (connectFail { s with wait := 0, restart := false, up := false, srpc := false, lastIt := clk (s.lastIt + 10000) }, b ++ [{ attempt := some false, restart := (connectFail { s with wait := 0, restart := false, up := false, srpc := false, lastIt := clk (s.lastIt + 10000) }).restart }]) := by
          intro a
          induction a with
          | nil =>
            intro s0 b hb
            simp only [run, Option.some.injEq, Prod.mk.injEq] at hb
            rw [hb.1, ← hb.2]
            simp only [List.nil_append, run, step, hp]
          | cons op a ih =>
            intro s0 b hb
            simp only [run] at hb
            split at hb
            · exact absurd hb (by simp)
            · rename_i s1 o h1
              split at hb
              · exact absurd hb (by simp)
              · rename_i s2 os2 h2
                simp only [Option.some.injEq, Prod.mk.injEq] at hb
                rw [hb.1] at h2
                simp only [List.cons_append, run, h1, ih s1 os2 h2]
                rw [← hb.2]
                rfl
        exact app ops {} os e1
      · intro o ho
        rcases List.mem_append.1 ho with ho | ho
        · exact e2 o ho
        · have := List.mem_singleton.1 ho
          rw [this]
          simp
      · show (attempts (os ++ [_])).length = m + 1
        unfold attempts at e3 ⊢
        rw [List.filterMap_append, List.length_append, e3]
        rfl
      · show (if s.first then 1000 else 10000) ≤ 10000
        split <;> omega
  obtain ⟨ops, s, os, e1, e2, e3, _⟩ := key k
  have h1 := hk ops s os e1 e2 (by omega)
  have h2 := (run_good good_init e1).fails
  unfold failTime at h1
  omega

end Verif.Srpc
