import Verif.Link.Lan

/-!
# Wired network interfaces: a network is used when there is one, and only then
-/

namespace Verif.Link

/-- There is a network: the link is present and there is an address. -/
abbrev online (d : Drv) : Prop := d.linked = true ∧ d.ip ≠ 0

/-- The driver's own facts. -/
def Sane (d : Drv) : Prop := (d.ip ≠ 0 → d.linked = true) ∧ (d.linked = true → d.on = true)

theorem sane_env (d : Drv) (e : Env) (h : Sane d) : Sane (env d e) := by
  obtain ⟨h1, h2⟩ := h
  cases e with
  | plug =>
    dsimp only [env]
    cases hd : d.on
    · exact ⟨h1, h2⟩
    · rw [if_pos rfl]
      exact ⟨fun _ => rfl, fun _ => rfl⟩
  | unplug =>
    dsimp only [env]
    cases hd : d.linked
    · exact ⟨h1, h2⟩
    · exact ⟨fun h => absurd rfl h, fun h => by cases h⟩
  | lease a =>
    dsimp only [env]
    split
    · rename_i hc
      simp only [Bool.and_eq_true] at hc
      exact ⟨fun _ => hc.1.1, h2⟩
    · exact ⟨h1, h2⟩
  | expire =>
    dsimp only [env]
    split
    · exact ⟨fun h => absurd rfl h, h2⟩
    · exact ⟨h1, h2⟩
  | late =>
    dsimp only [env]
    split
    · exact ⟨h1, h2⟩
    · exact ⟨h1, h2⟩

/-- What the last waiting event says fits the address there is. -/
def lastFits (ip : Nat) : Option Ev → Prop
  | none => True
  | some (.got a) => a = ip ∧ ip ≠ 0
  | some .lost => ip = 0
  | some .disc => ip = 0

/-- The invariant of the ESP-IDF interface. -/
structure Inv (s : Lan) : Prop where
  sane : Sane s.d
  fits : lastFits s.d.ip s.d.q.getLast?
  told : s.d.q = [] → s.ready = true → s.ipv4 = s.d.ip ∧ s.d.ip ≠ 0
  run : s.d.on = true → s.init = true

theorem fits_env (d : Drv) (e : Env) (h : lastFits d.ip d.q.getLast?) : lastFits (env d e).ip (env d e).q.getLast? ∧
    ((env d e).q = [] → (env d e).ip = d.ip) := by
  cases e with
  | plug =>
    dsimp only [env]
    split
    · exact ⟨h, fun _ => rfl⟩
    · exact ⟨h, fun _ => rfl⟩
  | unplug =>
    dsimp only [env]
    split
    · refine ⟨?_, fun hq => absurd hq (by simp)⟩
      dsimp only
      rw [List.getLast?_append]
      rfl
    · exact ⟨h, fun _ => rfl⟩
  | lease a =>
    dsimp only [env]
    split
    · rename_i hc
      simp only [Bool.and_eq_true, bne_iff_ne] at hc
      refine ⟨?_, fun hq => absurd hq (by simp)⟩
      dsimp only
      rw [List.getLast?_append]
      exact ⟨rfl, hc.1.2⟩
    · exact ⟨h, fun _ => rfl⟩
  | expire =>
    dsimp only [env]
    split
    · refine ⟨?_, fun hq => absurd hq (by simp)⟩
      dsimp only
      rw [List.getLast?_append]
      rfl
    · exact ⟨h, fun _ => rfl⟩
  | late =>
    dsimp only [env]
    split
    · rename_i hc
      refine ⟨?_, fun hq => absurd hq (by simp)⟩
      dsimp only
      rw [List.getLast?_append]
      exact (beq_iff_eq.mp hc : d.ip = 0)
    · exact ⟨h, fun _ => rfl⟩

theorem on_env (d : Drv) (e : Env) : (env d e).on = d.on := by
  cases e <;> dsimp only [env] <;> split <;> rfl

theorem stop_facts (d : Drv) (hs : Sane d) (h : lastFits d.ip d.q.getLast?) :
    Sane (stop d) ∧ lastFits (stop d).ip (stop d).q.getLast? ∧ ((stop d).q = [] → d.q = [] ∧ d.ip = 0) := by
  refine ⟨⟨fun h => absurd rfl h, fun h => by cases h⟩, ?_, ?_⟩
  · dsimp only [stop]
    cases hd : d.linked
    · have h0 : d.ip = 0 := Decidable.byContradiction (fun hne => by
        have := hs.1 hne
        rw [hd] at this
        cases this)
      rw [h0] at h
      exact h
    · rw [if_pos rfl, List.getLast?_append]
      rfl
  · dsimp only [stop]
    cases hd : d.linked
    · intro hq
      exact ⟨hq, Decidable.byContradiction (fun hne => by
        have := hs.1 hne
        rw [hd] at this
        cases this)⟩
    · rw [if_pos rfl]
      intro hq
      exact absurd hq (by simp)

theorem inv_step (s : Lan) (o : Op) (h : Inv s) : Inv (step s o) := by
  obtain ⟨h1, h2, h3, h4⟩ := h
  cases o with
  | setup =>
    show Inv (setup s)
    unfold setup
    cases hi : s.init
    · have hoff : s.d.on = false := by
        cases ho : s.d.on
        · rfl
        · have := h4 ho
          rw [hi] at this
          cases this
      exact ⟨⟨h1.1, fun _ => rfl⟩, h2, (fun _ h => by cases h), fun _ => rfl⟩
    · exact ⟨h1, h2, (fun _ h => by cases h), fun _ => rfl⟩
  | disable =>
    show Inv (disable s)
    unfold disable
    cases ha : s.allow
    · exact ⟨h1, h2, h3, h4⟩
    · obtain ⟨k1, k2, k3⟩ := stop_facts s.d h1 h2
      refine ⟨k1, k2, fun hq hr => ?_, fun h => by cases h⟩
      obtain ⟨m1, m2⟩ := k3 hq
      exact absurd m2 (h3 m1 hr).2
  | deliver =>
    show Inv (deliver s)
    unfold deliver
    cases hq : s.d.q with
    | nil => exact ⟨h1, h2, h3, h4⟩
    | cons e r =>
      dsimp only
      rw [hq] at h2
      have hl : r ≠ [] → r.getLast? = (e :: r).getLast? := by
        intro hne
        cases r with
        | nil => exact absurd rfl hne
        | cons b r => rw [List.getLast?_cons_cons]
      have hf : lastFits s.d.ip r.getLast? := by
        cases hr : r with
        | nil => exact trivial
        | cons b r' =>
          rw [← hr, hl (by rw [hr]; exact List.cons_ne_nil _ _)]
          exact h2
      cases e with
      | got a =>
        refine ⟨h1, hf, fun hq' hr => ?_, h4⟩
        have hq' : r = [] := hq'
        rw [hq'] at h2
        exact h2
      | lost => exact ⟨h1, hf, (fun _ hr => by cases hr), h4⟩
      | disc => exact ⟨h1, hf, (fun _ hr => by cases hr), h4⟩
  | env e =>
    obtain ⟨k1, k2⟩ := fits_env s.d e h2
    refine ⟨sane_env s.d e h1, k1, fun hq hr => ?_, fun ho => ?_⟩
    · have hq : (env s.d e).q = [] := hq
      have hnil : s.d.q = [] := by
        cases e with
        | plug => dsimp only [env] at hq; split at hq <;> exact hq
        | unplug => dsimp only [env] at hq; split at hq; (· exact absurd hq (by simp)); exact hq
        | lease a => dsimp only [env] at hq; split at hq; (· exact absurd hq (by simp)); exact hq
        | expire => dsimp only [env] at hq; split at hq; (· exact absurd hq (by simp)); exact hq
        | late => dsimp only [env] at hq; split at hq; (· exact absurd hq (by simp)); exact hq
      obtain ⟨m1, m2⟩ := h3 hnil hr
      have hip := k2 hq
      exact ⟨m1.trans hip.symm, fun h => m2 (hip.symm.trans h)⟩
    · have ho : (env s.d e).on = true := ho
      rw [on_env] at ho
      exact h4 ho

theorem inv_fresh : Inv fresh := ⟨⟨fun h => absurd rfl h, (fun h => by cases h)⟩, trivial, (fun _ h => by cases h), (fun h => by cases h)⟩

theorem inv_run (s : Lan) (h : Inv s) (l : List Op) : Inv (run s l) := by
  induction l generalizing s with
  | nil => exact h
  | cons o l ih => exact ih (step s o) (inv_step s o h)

/-! ### Handling all events -/

theorem deliver_facts (s : Lan) : (deliver s).d.q = s.d.q.tail ∧ (deliver s).d.on = s.d.on ∧ (deliver s).d.linked = s.d.linked ∧
    (deliver s).d.ip = s.d.ip ∧ (deliver s).init = s.init ∧ (deliver s).allow = s.allow := by
  unfold deliver
  cases hq : s.d.q with
  | nil => exact ⟨hq, rfl, rfl, rfl, rfl, rfl⟩
  | cons e r => cases e <;> exact ⟨rfl, rfl, rfl, rfl, rfl, rfl⟩

theorem drain_facts (n : Nat) : ∀ (s : Lan), s.d.q.length = n →
    (run s (List.replicate n .deliver)).d.q = [] ∧ (run s (List.replicate n .deliver)).d.ip = s.d.ip ∧
    (run s (List.replicate n .deliver)).d.linked = s.d.linked ∧ (run s (List.replicate n .deliver)).d.on = s.d.on := by
  induction n with
  | zero =>
    intro s h
    exact ⟨List.length_eq_zero_iff.mp h, rfl, rfl, rfl⟩
  | succ n ih =>
    intro s h
    obtain ⟨d1, d2, d3, d4, _, _⟩ := deliver_facts s
    have hl : (deliver s).d.q.length = n := by rw [d1, List.length_tail, h]; rfl
    obtain ⟨r1, r2, r3, r4⟩ := ih (deliver s) hl
    rw [List.replicate_succ]
    exact ⟨r1, r2.trans d4, r3.trans d3, r4.trans d2⟩

/-- **A network that is not there is never used.** Whatever has happened, once the waiting events are handled,
the interface is ready only if the link is present and has an address, and the address it tells is that one. -/
theorem lan_never_false (l : List Op) :
    (isReady (settle (run fresh l)) = true → online (run fresh l).d ∧ getIP (settle (run fresh l)) = (run fresh l).d.ip) := by
  have hi : Inv (run fresh l) := inv_run fresh inv_fresh l
  generalize run fresh l = s at hi
  obtain ⟨r1, r2, r3, _⟩ := drain_facts s.d.q.length s rfl
  have hi2 : Inv (settle s) := inv_run s hi _
  intro hr
  obtain ⟨t1, t2⟩ := hi2.told r1 hr
  have t2 : (settle s).d.ip ≠ 0 := t2
  have e2 : (settle s).d.ip = s.d.ip := r2
  refine ⟨⟨?_, fun h => t2 (e2.trans h)⟩, ?_⟩
  · exact hi.sane.1 (fun h => t2 (e2.trans h))
  · unfold getIP
    rw [if_pos hr, t1, e2]

/-- The full claim: it is ready exactly when there is a network. -/
def LanReady : Prop := ∀ l : List Op, isReady (settle (run fresh l)) = true ↔ online (run fresh l).d

/-- No set-up is repeated while there is an address. -/
def calm : Lan → List Op → Prop
  | _, [] => True
  | s, o :: l => (o = .setup → s.d.ip = 0) ∧ calm (step s o) l

/-- What is lost by a repeated set-up. -/
def Known (s : Lan) : Prop := s.d.q = [] → s.d.ip ≠ 0 → s.ready = true

theorem known_step (s : Lan) (o : Op) (h : Inv s) (hk : Known s) (hc : o = .setup → s.d.ip = 0) : Known (step s o) := by
  obtain ⟨h1, h2, _, _⟩ := h
  cases o with
  | setup =>
    intro hq hne
    have h0 := hc rfl
    exfalso
    apply hne
    show (setup s).d.ip = 0
    unfold setup
    cases s.init <;> exact h0
  | disable =>
    show Known (disable s)
    unfold disable
    cases s.allow
    · exact hk
    · intro _ hne
      exact absurd rfl hne
  | deliver =>
    show Known (deliver s)
    unfold deliver
    cases hq : s.d.q with
    | nil => exact hk
    | cons e r =>
      dsimp only
      rw [hq] at h2
      cases e with
      | got a =>
        intro hq' hne
        have hq' : r = [] := hq'
        rw [hq'] at h2
        have h2 : a = s.d.ip ∧ s.d.ip ≠ 0 := h2
        show (a != 0) = true
        rw [h2.1]
        exact bne_iff_ne.mpr h2.2
      | lost =>
        intro hq' hne
        have hq' : r = [] := hq'
        rw [hq'] at h2
        exact absurd h2 hne
      | disc =>
        intro hq' hne
        have hq' : r = [] := hq'
        rw [hq'] at h2
        exact absurd h2 hne
  | env e =>
    intro hq hne
    have hq : (env s.d e).q = [] := hq
    have hne : (env s.d e).ip ≠ 0 := hne
    have hnil : s.d.q = [] := by
      cases e with
      | plug => dsimp only [env] at hq; split at hq <;> exact hq
      | unplug => dsimp only [env] at hq; split at hq; (· exact absurd hq (by simp)); exact hq
      | lease a => dsimp only [env] at hq; split at hq; (· exact absurd hq (by simp)); exact hq
      | expire => dsimp only [env] at hq; split at hq; (· exact absurd hq (by simp)); exact hq
      | late => dsimp only [env] at hq; split at hq; (· exact absurd hq (by simp)); exact hq
    have hip := (fits_env s.d e h2).2 hq
    exact hk hnil (fun h => hne (hip.trans h))

theorem known_run : ∀ (l : List Op) (s : Lan), Inv s → Known s → calm s l → Known (run s l) := by
  intro l
  induction l with
  | nil => intro s _ h _; exact h
  | cons o l ih => intro s hi hk hc; exact ih (step s o) (inv_step s o hi) (known_step s o hi hk hc.1) hc.2

theorem calm_deliver (n : Nat) : ∀ s, calm s (List.replicate n .deliver) := by
  induction n with
  | zero => intro _; trivial
  | succ n ih => intro s; rw [List.replicate_succ]; exact ⟨(fun h => by cases h), ih _⟩

/-- **Partial: a network that is there is used, if the interface is set up only while it has no address.** Missing:
the set-up repeated while there is an address, which is what the main loop does when the server does not answer
(`lan_stuck`). -/
theorem lan_ready_partial (l : List Op) (hc : calm fresh l) : isReady (settle (run fresh l)) = true ↔ online (run fresh l).d := by
  constructor
  · intro h
    exact (lan_never_false l h).1
  · intro ho
    have hk : Known (run fresh l) := known_run l fresh inv_fresh (fun _ h => absurd rfl h) hc
    have hi : Inv (run fresh l) := inv_run fresh inv_fresh l
    generalize run fresh l = s at hk hi ho
    obtain ⟨r1, r2, _, _⟩ := drain_facts s.d.q.length s rfl
    have hk2 : Known (settle s) := known_run _ s hi hk (calm_deliver _ s)
    exact hk2 r1 (fun h => ho.2 (r2.symm.trans h))

/-- An ordinary day: the cable, an address, the cable pulled and put back, another address. -/
example : calm fresh [.setup, .env .plug, .env (.lease 5), .deliver, .env .unplug, .deliver, .setup, .env .plug, .env (.lease 7)] ∧
    online (run fresh [.setup, .env .plug, .env (.lease 5), .deliver, .env .unplug, .deliver, .setup, .env .plug, .env (.lease 7)]).d := by
  refine ⟨⟨by decide, by decide, by decide, by decide, by decide, by decide, by decide, by decide, by decide, trivial⟩, by decide, by decide⟩

/-- What does not touch the cable and does not change the address. -/
def quiet (ip : Nat) : Op → Bool
  | .setup => true
  | .disable => false
  | .deliver => true
  | .env .plug => true
  | .env .unplug => false
  | .env (.lease a) => a == ip
  | .env .expire => false
  | .env .late => true

/-- **Once the interface is set up again, it is not ready for as long as the cable stays in and the address stays the
same** - whatever is set up how often, and however often the address is renewed. -/
theorem lan_stuck (s : Lan) (hq : s.d.q = []) (ho : online s.d) (l : List Op) (hl : l.all (quiet s.d.ip) = true) :
    isReady (run (setup s) l) = false ∧ (run (setup s) l).d.linked = true ∧ (run (setup s) l).d.ip = s.d.ip := by
  have key : ∀ (l : List Op) (t : Lan), l.all (quiet s.d.ip) = true → t.d.q = [] → t.d.linked = true → t.d.ip = s.d.ip → t.ready = false →
      (run t l).ready = false ∧ (run t l).d.linked = true ∧ (run t l).d.ip = s.d.ip := by
    intro l
    induction l with
    | nil => intro t _ _ h1 h2 h3; exact ⟨h3, h1, h2⟩
    | cons o l ih =>
      intro t hall tq tl ti tr
      rw [List.all_cons, Bool.and_eq_true] at hall
      obtain ⟨ha, hb⟩ := hall
      have hs : (step t o).d.q = [] ∧ (step t o).d.linked = true ∧ (step t o).d.ip = s.d.ip ∧ (step t o).ready = false := by
        cases o with
        | setup =>
          show (setup t).d.q = [] ∧ (setup t).d.linked = true ∧ (setup t).d.ip = s.d.ip ∧ (setup t).ready = false
          unfold setup
          cases t.init <;> exact ⟨tq, tl, ti, rfl⟩
        | disable => cases ha
        | deliver =>
          have e : step t .deliver = t := by
            show deliver t = t
            unfold deliver
            rw [tq]
          rw [e]
          exact ⟨tq, tl, ti, tr⟩
        | env e =>
          cases e with
          | plug =>
            show (env t.d .plug).q = [] ∧ (env t.d .plug).linked = true ∧ (env t.d .plug).ip = s.d.ip ∧ t.ready = false
            dsimp only [env]
            cases t.d.on
            · exact ⟨tq, tl, ti, tr⟩
            · exact ⟨tq, rfl, ti, tr⟩
          | unplug => cases ha
          | lease a =>
            have ha : a = t.d.ip := (beq_iff_eq.mp ha).trans ti.symm
            have e : env t.d (.lease a) = t.d := by
              dsimp only [env]
              rw [if_neg (fun hc => by
                simp only [Bool.and_eq_true, bne_iff_ne] at hc
                exact hc.2 ha)]
            show (env t.d (.lease a)).q = [] ∧ (env t.d (.lease a)).linked = true ∧ (env t.d (.lease a)).ip = s.d.ip ∧ t.ready = false
            rw [e]
            exact ⟨tq, tl, ti, tr⟩
          | expire => cases ha
          | late =>
            have e : env t.d .late = t.d := by
              dsimp only [env]
              rw [if_neg (fun hc => ho.2 (ti.symm.trans (beq_iff_eq.mp hc)))]
            show (env t.d .late).q = [] ∧ (env t.d .late).linked = true ∧ (env t.d .late).ip = s.d.ip ∧ t.ready = false
            rw [e]
            exact ⟨tq, tl, ti, tr⟩
      exact ih (step t o) hb hs.1 hs.2.1 hs.2.2.1 hs.2.2.2
  have hs : (setup s).d.q = [] ∧ (setup s).d.linked = true ∧ (setup s).d.ip = s.d.ip := by
    unfold setup
    cases s.init <;> exact ⟨hq, ho.1, rfl⟩
  exact key l (setup s) hl hs.1 hs.2.1 hs.2.2 rfl

/-- A device that is online. -/
def up : Lan := run fresh [.setup, .env .plug, .env (.lease 5), .deliver]

example : isReady up = true ∧ up.d.q = [] ∧ online up.d := by decide +kernel

/-- **Violation.** The cable is in, the address is there, the interface was set up a second time: not ready. -/
theorem lan_ready_violation : ¬ LanReady := by
  intro h
  have := h [.setup, .env .plug, .env (.lease 5), .deliver, .setup]
  revert this
  decide +kernel

/-- **Violation: one minute without an answer from the server is the end of it.** From a device that is online and
whose protocol asks once for the network to be restarted, the interface is never ready again, however long the main
loop runs and whatever the protocol says, although link and address are there all the time. -/
theorem outage_violation (l : Loop) (hr : isReady l.lan = true) (hi : l.lan.init = true) (ha : l.again = false) (b : Bool) (bs : List Bool) :
    isReady ((b :: bs).foldl tick (tick l true)).lan = false ∧ ((b :: bs).foldl tick (tick l true)).lan.d = l.lan.d := by
  have key : ∀ (bs : List Bool) (t : Loop), isReady t.lan = false → t.lan.init = true →
      isReady (bs.foldl tick t).lan = false ∧ (bs.foldl tick t).lan.d = t.lan.d := by
    intro bs
    induction bs with
    | nil => intro t h _; exact ⟨h, rfl⟩
    | cons b bs ih =>
      intro t h hi
      have hre : isReady (restart t).lan = false ∧ (restart t).lan.d = t.lan.d ∧ (restart t).lan.init = true := by
        unfold restart
        cases t.again
        · exact ⟨h, rfl, hi⟩
        · refine ⟨rfl, ?_, rfl⟩
          show (setup t.lan).d = t.lan.d
          unfold setup
          rw [hi]
          rfl
      have hw : (watch (restart t)).lan = (restart t).lan := by
        unfold watch
        split <;> rfl
      have hk : (tick t b).lan = (restart t).lan := by
        unfold tick asks
        rw [hw, hre.1]
        exact hw
      obtain ⟨k1, k2⟩ := ih (tick t b) (by rw [hk]; exact hre.1) (by rw [hk]; exact hre.2.2)
      refine ⟨k1, k2.trans ?_⟩
      rw [hk]
      exact hre.2.1
  have h1 : (tick l true).lan = l.lan ∧ (tick l true).again = true := by
    unfold tick restart
    rw [ha, if_neg Bool.false_ne_true]
    unfold watch
    rw [if_pos hr]
    unfold asks
    rw [if_pos (show (isReady l.lan && true) = true by rw [hr]; rfl)]
    exact ⟨rfl, rfl⟩
  have h2 : (restart (tick l true)).lan = setup l.lan := by
    unfold restart
    rw [h1.2, if_pos rfl, h1.1]
  have h3 : (tick (tick l true) b).lan = setup l.lan := by
    have hnr : isReady (setup l.lan) = false := rfl
    have hw : (watch (restart (tick l true))).lan = setup l.lan := by
      unfold watch
      split <;> exact h2
    generalize tick l true = t at hw
    unfold tick asks
    rw [hw, hnr]
    exact hw
  obtain ⟨k1, k2⟩ := key bs (tick (tick l true) b) (by rw [h3]; rfl) (by rw [h3]; rfl)
  refine ⟨k1, k2.trans ?_⟩
  rw [h3]
  unfold setup
  rw [hi]
  rfl

example : isReady up = true ∧ up.init = true ∧ online up.d := by decide +kernel

/-- **Without a network the interface is set up again every 600 rounds (a minute), and not more often**: a round without a
network counts one, and asks for a set-up, made at the beginning of the next round, exactly at the multiples of 600. -/
theorem restart_every_minute (t : Loop) (b : Bool) (h : isReady t.lan = false) :
    isReady (tick t b).lan = false ∧ (tick t b).cnt = t.cnt + 1 ∧ (tick t b).again = decide ((t.cnt + 1) % 600 = 0) ∧
    (tick t b).lan = (if t.again then setup t.lan else t.lan) := by
  have hre : isReady (restart t).lan = false ∧ (restart t).cnt = t.cnt ∧ (restart t).again = false ∧ (restart t).lan = (if t.again then setup t.lan else t.lan) := by
    unfold restart
    cases ha : t.again
    · exact ⟨h, rfl, ha, rfl⟩
    · exact ⟨rfl, rfl, rfl, rfl⟩
  obtain ⟨r1, r2, r3, r4⟩ := hre
  unfold tick
  generalize restart t = u at r1 r2 r3 r4
  have hw : watch u = { u with cnt := u.cnt + 1, again := if (u.cnt + 1) % 600 == 0 then true else u.again } := by
    unfold watch
    rw [r1]
    rfl
  have ha : asks (watch u) b = watch u := by
    unfold asks
    rw [hw]
    dsimp only
    rw [r1]
    rfl
  rw [ha, hw]
  refine ⟨r1, congrArg (· + 1) r2, ?_, r4⟩
  dsimp only
  rw [r2, r3]
  by_cases hm : (t.cnt + 1) % 600 = 0
  · rw [if_pos (beq_iff_eq.mpr hm)]
    exact (decide_eq_true hm).symm
  · rw [if_neg (fun hh => hm (beq_iff_eq.mp hh))]
    exact (decide_eq_false hm).symm

/-- **Violation: an interface that was switched off stays off.** After `disable` of an interface that had been set up,
nothing - a set-up, the cable - makes it ready again once the waiting events are handled. -/
theorem lan_off_violation (s : Lan) (hs : Inv s) (hi : s.init = true) (ha : s.allow = true) (l : List Op) :
    isReady (settle (run (disable s) l)) = false := by
  have key : ∀ (l : List Op) (t : Lan), t.init = true → t.d.on = false → (run t l).d.on = false := by
    intro l
    induction l with
    | nil => intro t _ h; exact h
    | cons o l ih =>
      intro t h1 h2
      have : (step t o).init = true ∧ (step t o).d.on = false := by
        cases o with
        | setup =>
          show (setup t).init = true ∧ (setup t).d.on = false
          unfold setup
          rw [h1]
          exact ⟨rfl, h2⟩
        | disable =>
          show (disable t).init = true ∧ (disable t).d.on = false
          unfold disable
          cases t.allow
          · exact ⟨h1, h2⟩
          · exact ⟨h1, rfl⟩
        | deliver =>
          obtain ⟨_, d2, _, _, d5, _⟩ := deliver_facts t
          exact ⟨d5.trans h1, d2.trans h2⟩
        | env e => exact ⟨h1, (on_env t.d e).trans h2⟩
      exact ih (step t o) this.1 this.2
  have h0 : (disable s).init = true ∧ (disable s).d.on = false := by
    unfold disable
    rw [ha]
    exact ⟨hi, rfl⟩
  have hoff := key l (disable s) h0.1 h0.2
  have hinv : Inv (run (disable s) l) := inv_run _ (inv_step s .disable hs) l
  generalize run (disable s) l = t at hoff hinv
  obtain ⟨r1, r2, _, _⟩ := drain_facts t.d.q.length t rfl
  have hi2 : Inv (settle t) := inv_run t hinv _
  cases hr : isReady (settle t)
  · rfl
  · obtain ⟨_, t2⟩ := hi2.told r1 hr
    have hl := hinv.sane.1 (fun h => t2 (r2.trans h))
    have := hinv.sane.2 hl
    rw [hoff] at this
    cases this

example : Inv up ∧ up.init = true ∧ up.allow = true := ⟨inv_run fresh inv_fresh _, by decide +kernel, by decide +kernel⟩

/-! ### The Arduino interfaces -/

/-- What the last waiting event will do fits the address there is (no loss of an address is reported). -/
def fitsA (s : Lan) : Option Ev → Prop
  | none => s.ipv4 = s.d.ip ∧ s.ready = (s.d.ip != 0)
  | some (.got _) => s.d.ip ≠ 0
  | some .lost => False
  | some .disc => s.d.ip = 0

/-- The invariant of the Arduino interfaces. -/
structure InvA (s : Lan) : Prop where
  sane : Sane s.d
  fits : fitsA s s.d.q.getLast?
  clean : ∀ e ∈ s.d.q, e ≠ .lost
  run : s.d.on = s.init

/-- The address is not lost while the link stays. -/
def keeps : Op → Bool
  | .env .expire => false
  | .env .late => false
  | _ => true

theorem invA_fresh : InvA fresh := ⟨⟨fun h => absurd rfl h, (fun h => by cases h)⟩, ⟨rfl, rfl⟩, (fun _ h => by cases h), rfl⟩

theorem invA_step (s : Lan) (o : Op) (h : InvA s) (hk : keeps o = true) : InvA (stepA s o) := by
  obtain ⟨h1, h2, h3, h4⟩ := h
  cases o with
  | setup =>
    show InvA (setupA s)
    unfold setupA
    cases hi : s.init
    · rw [hi] at h4
      exact ⟨⟨h1.1, fun _ => rfl⟩, h2, h3, rfl⟩
    · rw [hi] at h4
      exact ⟨h1, h2, h3, h4⟩
  | disable =>
    show InvA (disableA s)
    unfold disableA
    cases s.allow
    · exact ⟨h1, h2, h3, h4⟩
    · exact ⟨h1, h2, h3, h4⟩
  | deliver =>
    show InvA (deliverA s)
    unfold deliverA
    cases hq : s.d.q with
    | nil =>
      exact ⟨h1, h2, h3, h4⟩
    | cons e r =>
      rw [hq] at h2 h3
      have h3' : ∀ e ∈ r, e ≠ .lost := fun e he => h3 e (List.mem_cons_of_mem _ he)
      dsimp only
      cases r with
      | nil =>
        cases e with
        | got a => exact ⟨h1, ⟨rfl, rfl⟩, h3', h4⟩
        | lost => exact absurd h2 (fun h => h)
        | disc =>
          have h2 : s.d.ip = 0 := h2
          refine ⟨h1, ⟨h2.symm, ?_⟩, h3', h4⟩
          show false = (s.d.ip != 0)
          rw [h2]
          rfl
      | cons b r =>
        rw [List.getLast?_cons_cons] at h2
        have hl : ∃ x, (b :: r).getLast? = some x := ⟨_, List.getLast?_eq_some_getLast (List.cons_ne_nil b r)⟩
        obtain ⟨x, hx⟩ := hl
        cases e with
        | got a =>
          refine ⟨h1, ?_, h3', h4⟩
          show fitsA _ (b :: r).getLast?
          rw [hx] at h2 ⊢
          cases x <;> exact h2
        | lost => exact absurd rfl (h3 _ List.mem_cons_self)
        | disc =>
          refine ⟨h1, ?_, h3', h4⟩
          show fitsA _ (b :: r).getLast?
          rw [hx] at h2 ⊢
          cases x <;> exact h2
  | env e =>
    refine ⟨sane_env s.d e h1, ?_, ?_, (on_env s.d e).trans h4⟩
    · cases e with
      | plug =>
        show fitsA { s with d := env s.d .plug } (env s.d .plug).q.getLast?
        dsimp only [env]
        split
        · dsimp only
          cases hx : s.d.q.getLast? with
          | none => rw [hx] at h2; exact h2
          | some x => rw [hx] at h2; cases x <;> exact h2
        · exact h2
      | unplug =>
        show fitsA { s with d := env s.d .unplug } (env s.d .unplug).q.getLast?
        dsimp only [env]
        split
        · dsimp only
          rw [List.getLast?_append]
          rfl
        · exact h2
      | lease a =>
        show fitsA { s with d := env s.d (.lease a) } (env s.d (.lease a)).q.getLast?
        dsimp only [env]
        split
        · rename_i hc
          simp only [Bool.and_eq_true, bne_iff_ne] at hc
          dsimp only
          rw [List.getLast?_append]
          exact hc.1.2
        · exact h2
      | expire => cases hk
      | late => cases hk
    · intro x hx
      cases e with
      | plug =>
        apply h3 x
        revert hx
        show x ∈ (env s.d .plug).q → x ∈ s.d.q
        dsimp only [env]
        split <;> exact id
      | unplug =>
        revert hx
        show x ∈ (env s.d .unplug).q → _
        dsimp only [env]
        split
        · intro hx
          rcases List.mem_append.mp hx with hx | hx
          · exact h3 x hx
          · rw [List.mem_singleton.mp hx]
            exact (fun h => by cases h)
        · exact h3 x
      | lease a =>
        revert hx
        show x ∈ (env s.d (.lease a)).q → _
        dsimp only [env]
        split
        · intro hx
          rcases List.mem_append.mp hx with hx | hx
          · exact h3 x hx
          · rw [List.mem_singleton.mp hx]
            exact (fun h => by cases h)
        · exact h3 x
      | expire => cases hk
      | late => cases hk

theorem invA_run : ∀ (l : List Op) (s : Lan), InvA s → l.all keeps = true → InvA (runA s l) := by
  intro l
  induction l with
  | nil => intro s h _; exact h
  | cons o l ih =>
    intro s h hl
    rw [List.all_cons, Bool.and_eq_true] at hl
    exact ih (stepA s o) (invA_step s o h hl.1) hl.2

theorem deliverA_facts (s : Lan) : (deliverA s).d.q = s.d.q.tail ∧ (deliverA s).d.ip = s.d.ip ∧ (deliverA s).d.linked = s.d.linked := by
  unfold deliverA
  cases hq : s.d.q with
  | nil => exact ⟨hq, rfl, rfl⟩
  | cons e r => cases e <;> exact ⟨rfl, rfl, rfl⟩

theorem drainA_facts (n : Nat) : ∀ (s : Lan), s.d.q.length = n →
    (runA s (List.replicate n .deliver)).d.q = [] ∧ (runA s (List.replicate n .deliver)).d.ip = s.d.ip ∧
    (runA s (List.replicate n .deliver)).d.linked = s.d.linked := by
  induction n with
  | zero =>
    intro s h
    exact ⟨List.length_eq_zero_iff.mp h, rfl, rfl⟩
  | succ n ih =>
    intro s h
    obtain ⟨d1, d2, d3⟩ := deliverA_facts s
    have hl : (deliverA s).d.q.length = n := by rw [d1, List.length_tail, h]; rfl
    obtain ⟨r1, r2, r3⟩ := ih (deliverA s) hl
    rw [List.replicate_succ]
    exact ⟨r1, r2.trans d2, r3.trans d3⟩

/-- The full claim for the Arduino interfaces. -/
def ArduinoReady : Prop := ∀ l : List Op, isReady (settleA (runA fresh l)) = true ↔ online (runA fresh l).d

/-- **Partial: the Arduino interfaces are ready exactly when there is a network**, with the right address, however
often they are set up and disabled, as long as an address is not lost while the link stays. Missing: that loss is not
looked at (`arduino_ready_violation`). -/
theorem arduino_ready_partial (l : List Op) (hl : l.all keeps = true) :
    (isReady (settleA (runA fresh l)) = true ↔ online (runA fresh l).d) ∧ getIP (settleA (runA fresh l)) = (runA fresh l).d.ip := by
  have hi := invA_run l fresh invA_fresh hl
  generalize runA fresh l = s at hi
  obtain ⟨r1, r2, r3⟩ := drainA_facts s.d.q.length s rfl
  have hk : (List.replicate s.d.q.length Op.deliver).all keeps = true := by
    rw [List.all_eq_true]
    intro x hx
    rw [List.eq_of_mem_replicate hx]
    rfl
  have hi2 : InvA (settleA s) := invA_run _ s hi hk
  have hf := hi2.fits
  rw [show (settleA s).d.q = [] from r1] at hf
  obtain ⟨f1, f2⟩ := hf
  have e2 : (settleA s).d.ip = s.d.ip := r2
  rw [e2] at f1 f2
  refine ⟨?_, ?_⟩
  · unfold isReady
    rw [f2, bne_iff_ne]
    exact ⟨fun h => ⟨hi.sane.1 h, h⟩, fun h => h.2⟩
  · unfold getIP isReady
    rw [f2, f1]
    by_cases h : s.d.ip = 0
    · rw [h]
      rfl
    · rw [if_pos (bne_iff_ne.mpr h)]

example : isReady (settleA (runA fresh [.setup, .env .plug, .env (.lease 5), .deliver, .setup, .disable, .setup])) = true := by decide +kernel

/-- **Violation.** The address expires, nothing else changes: the interface stays ready. -/
theorem arduino_ready_violation : ¬ ArduinoReady := by
  intro h
  have := h [.setup, .env .plug, .env (.lease 5), .deliver, .env .expire]
  revert this
  decide +kernel

end Verif.Link
