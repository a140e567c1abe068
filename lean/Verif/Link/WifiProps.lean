import Verif.Link.Wifi

/-!
# Wi-Fi on ESP-IDF: on the network exactly when it is, never giving up, and telling why it was lost
-/

namespace Verif.Link.Wifi

/-- What an event does to the belief of being connected. -/
def effC (c : Bool) : Ev → Bool
  | .connected => true
  | .disc _ => false
  | _ => c

/-- What an event does to the belief of having an address. -/
def effI (c : Bool) : Ev → Bool
  | .got _ => true
  | .lost => false
  | .disc _ => false
  | _ => c

/-- What an event does to the address. -/
def effA (c : Nat) : Ev → Nat
  | .got a => a
  | .lost => 0
  | _ => c

/-- What an event does to `scanned`. -/
def effS (c : Bool) : Ev → Bool
  | .connected => true
  | .disc _ => true
  | .stopped => false
  | .started => false
  | _ => c

/-- Handling the event starts an attempt. -/
def kick : Ev → Bool
  | .started => true
  | .disc _ => true
  | _ => false

/-- The invariant: what will be believed after the waiting events is what is. -/
structure Inv (s : Wifi) : Prop where
  conn : s.d.q.foldl effC s.conn = s.d.linked
  ip : s.d.q.foldl effI s.ipReady = (s.d.ip != 0)
  addr : s.d.ip ≠ 0 → s.d.q.foldl effA s.ipv4 = s.d.ip
  ipLinked : s.d.ip ≠ 0 → s.d.linked = true
  linkedOn : s.d.linked = true → s.d.on = true
  tryOn : s.d.trying = true → s.d.on = true ∧ s.d.linked = false
  allow : s.allow = s.d.on
  init : s.d.on = true → s.init = true
  scan : s.d.linked = true → s.d.q.foldl effS s.scanned = true
  mode : s.asked = false → s.d.on = true → s.d.sta = !s.config
  trys : s.asked = false → s.d.on = true → s.d.sta = true → s.d.linked = true ∨ s.d.trying = true ∨ ∃ e ∈ s.d.q, kick e = true

theorem inv_fresh : Inv fresh :=
  ⟨rfl, rfl, fun h => absurd rfl h, fun h => absurd rfl h, (fun h => by cases h), (fun h => by cases h), rfl, (fun h => by cases h), (fun h => by cases h), (fun _ h => by cases h), (fun _ h => by cases h)⟩

theorem effI_false (q : List Ev) (b : Bool) (h : q.foldl effI b = false) : q.foldl effI false = false := by
  induction q generalizing b with
  | nil => rfl
  | cons e q ih =>
    cases e with
    | stopped => exact ih b h
    | started => exact ih b h
    | connected => exact ih b h
    | disc r => exact h
    | got a => exact h
    | lost => exact h

theorem ip_zero (s : Wifi) (h : Inv s) (hl : s.d.linked = false) : s.d.ip = 0 :=
  Decidable.byContradiction (fun hne => by
    have := h.ipLinked hne
    rw [hl] at this
    cases this)

/-- An interface that was halted: no connection, no attempt, and the events say so. -/
structure Halted (s : Wifi) : Prop where
  conn : s.d.q.foldl effC s.conn = false
  ip : s.d.q.foldl effI s.ipReady = false
  zero : s.d.ip = 0
  linked : s.d.linked = false
  trying : s.d.trying = false
  on : s.d.on = false
  allow : s.allow = false

theorem halted_disable (s : Wifi) (h : Inv s) : Halted (disable s) := by
  unfold disable
  cases ha : s.allow
  · have hon : s.d.on = false := h.allow.symm.trans ha
    have hl : s.d.linked = false := by
      cases hl : s.d.linked
      · rfl
      · have := h.linkedOn hl
        rw [hon] at this
        cases this
    have ht : s.d.trying = false := by
      cases ht : s.d.trying
      · rfl
      · have := (h.tryOn ht).1
        rw [hon] at this
        cases this
    have h0 := ip_zero s h hl
    refine ⟨h.conn.trans hl, h.ip.trans ?_, h0, hl, ht, hon, ha⟩
    rw [h0]
    rfl
  · rw [if_pos rfl]
    have key : ∀ x : List Ev, (∀ e ∈ x, e = .stopped) → ∀ b c, x.foldl effC b = b ∧ x.foldl effI c = c := by
      intro x
      induction x with
      | nil => intro _ b c; exact ⟨rfl, rfl⟩
      | cons e x ih =>
        intro hx b c
        have he := hx e List.mem_cons_self
        rw [he]
        exact ih (fun e he => hx e (List.mem_cons_of_mem _ he)) b c
    have hst : ∀ d : Drv, ∃ x : List Ev, (stop d).q = d.q ++ x ∧ ∀ e ∈ x, e = .stopped := by
      intro d
      unfold stop
      cases hc : (d.on && d.sta)
      · exact ⟨[], by rw [List.append_nil]; rfl, (fun e he => by cases he)⟩
      · exact ⟨[.stopped], rfl, fun e he => List.mem_singleton.mp he⟩
    obtain ⟨x, hx1, hx2⟩ := hst (disconnect s.d)
    cases hd : (s.d.linked || s.d.trying)
    · have hdd : disconnect s.d = s.d := by unfold disconnect; rw [hd]; rfl
      rw [Bool.or_eq_false_iff] at hd
      have h0 := ip_zero s h hd.1
      rw [hdd] at hx1 ⊢
      obtain ⟨k1, k2⟩ := key x hx2 (s.d.q.foldl effC s.conn) (s.d.q.foldl effI s.ipReady)
      refine ⟨?_, ?_, h0, hd.1, hd.2, rfl, rfl⟩
      · show (stop s.d).q.foldl effC s.conn = false
        rw [hx1, List.foldl_append, k1, h.conn]
        exact hd.1
      · show (stop s.d).q.foldl effI s.ipReady = false
        rw [hx1, List.foldl_append, k2, h.ip, h0]
        rfl
    · have hdd : disconnect s.d = { s.d with linked := false, trying := false, ip := 0, q := s.d.q ++ [.disc 8] } := by
        unfold disconnect; rw [hd]; rfl
      have hq : (disconnect s.d).q = s.d.q ++ [.disc 8] := by rw [hdd]
      obtain ⟨k1, k2⟩ := key x hx2 false false
      refine ⟨?_, ?_, ?_, ?_, ?_, rfl, rfl⟩
      · show (stop (disconnect s.d)).q.foldl effC s.conn = false
        rw [hx1, hq, List.foldl_append, List.foldl_append]
        exact k1
      · show (stop (disconnect s.d)).q.foldl effI s.ipReady = false
        rw [hx1, hq, List.foldl_append, List.foldl_append]
        exact k2
      · show (disconnect s.d).ip = 0
        rw [hdd]
      · show (disconnect s.d).linked = false
        rw [hdd]
      · show (disconnect s.d).trying = false
        rw [hdd]

theorem disable_ipReady (s : Wifi) (b : Bool) : disable { s with ipReady := b } = { disable s with ipReady := b } := by
  cases s with
  | mk d i c r a ip cf as sc rg lg => cases a <;> rfl

theorem disable_fields (s : Wifi) : (disable s).init = s.init ∧ (disable s).config = s.config ∧ (disable s).asked = s.asked := by
  unfold disable
  cases s.allow <;> exact ⟨rfl, rfl, rfl⟩

theorem halted_halt (s : Wifi) (h : Inv s) : Halted (halt s) ∧ (halt s).config = s.config := by
  cases hi : s.init
  · have hon : s.d.on = false := by
      cases ho : s.d.on
      · rfl
      · have := h.init ho
        rw [hi] at this
        cases this
    have hal : s.allow = false := h.allow.trans hon
    have hh := halted_disable s h
    have e : disable s = s := by unfold disable; rw [hal]; rfl
    rw [e] at hh
    rw [show halt s = { s with ipReady := false } by unfold halt; rw [hi]; rfl]
    exact ⟨⟨hh.conn, effI_false _ _ hh.ip, hh.zero, hh.linked, hh.trying, hh.on, hh.allow⟩, rfl⟩
  · have hh := halted_disable s h
    rw [show halt s = { disable s with ipReady := false } by unfold halt; rw [if_pos hi, disable_ipReady]]
    exact ⟨⟨hh.conn, effI_false _ _ hh.ip, hh.zero, hh.linked, hh.trying, hh.on, hh.allow⟩, (disable_fields s).2.1⟩

theorem inv_setup (s : Wifi) (h : Inv s) : Inv (setup s) := by
  obtain ⟨hh, hc⟩ := halted_halt s h
  unfold setup
  generalize halt s = t at hh hc
  have hx : ∃ x : List Ev, (start t.d (!s.config)).q = t.d.q ++ x ∧ (x = [] ∨ x = [.started]) := by
    unfold start
    cases (!s.config)
    · exact ⟨[], (List.append_nil _).symm, Or.inl rfl⟩
    · exact ⟨[.started], rfl, Or.inr rfl⟩
  obtain ⟨x, hx1, hx2⟩ := hx
  have hconn : (start t.d (!s.config)).q.foldl effC t.conn = false := by
    rw [hx1, List.foldl_append, hh.conn]
    rcases hx2 with e | e <;> rw [e] <;> rfl
  have hip : (start t.d (!s.config)).q.foldl effI t.ipReady = false := by
    rw [hx1, List.foldl_append, hh.ip]
    rcases hx2 with e | e <;> rw [e] <;> rfl
  refine ⟨hconn.trans hh.linked.symm, hip.trans ?_, fun hne => absurd hh.zero hne, fun hne => absurd hh.zero hne, fun _ => rfl,
    fun ht => ⟨rfl, hh.linked⟩, rfl, fun _ => rfl, fun hl => ?_, fun _ _ => ?_, fun _ _ hs => ?_⟩
  · show false = ((start t.d (!s.config)).ip != 0)
    rw [show (start t.d (!s.config)).ip = 0 from hh.zero]
    rfl
  · have hl : t.d.linked = true := hl
    rw [hh.linked] at hl
    cases hl
  · show (!s.config) = (!t.config)
    rw [hc]
  · right; right
    have hs : (!s.config) = true := hs
    refine ⟨.started, ?_, rfl⟩
    show Ev.started ∈ (start t.d (!s.config)).q
    unfold start
    rw [hs, if_pos rfl]
    exact List.mem_append_right _ List.mem_cons_self

theorem inv_disable (s : Wifi) (h : Inv s) : Inv (disable s) := by
  have hh := halted_disable s h
  refine ⟨hh.conn.trans hh.linked.symm, hh.ip.trans ?_, fun hne => absurd hh.zero hne, fun hne => absurd hh.zero hne, fun hl => ?_, fun ht => ?_,
    hh.allow.trans hh.on.symm, fun ho => ?_, fun hl => ?_, fun _ ho => ?_, fun _ ho => ?_⟩
  · rw [hh.zero]
    rfl
  · rw [hh.linked] at hl; cases hl
  · rw [hh.trying] at ht; cases ht
  · rw [hh.on] at ho; cases ho
  · rw [hh.linked] at hl; cases hl
  · rw [hh.on] at ho; cases ho
  · rw [hh.on] at ho; cases ho

theorem connect_facts (d : Drv) : (connect d).on = d.on ∧ (connect d).sta = d.sta ∧ (connect d).linked = d.linked ∧ (connect d).ip = d.ip ∧
    (connect d).q = d.q ∧ (d.on = true → d.sta = true → d.linked = true ∨ (connect d).trying = true) ∧
    ((d.trying = true → d.on = true ∧ d.linked = false) → (connect d).trying = true → d.on = true ∧ d.linked = false) := by
  cases hc : (d.on && d.sta && !d.linked)
  · have e : connect d = d := by unfold connect; rw [hc]; rfl
    rw [e]
    refine ⟨rfl, rfl, rfl, rfl, rfl, fun h1 h2 => ?_, fun h => h⟩
    rw [h1, h2] at hc
    cases hl : d.linked
    · rw [hl] at hc; cases hc
    · exact Or.inl rfl
  · have e : connect d = { d with trying := true } := by unfold connect; rw [hc]; rfl
    rw [e]
    simp only [Bool.and_eq_true, Bool.not_eq_true'] at hc
    exact ⟨rfl, rfl, rfl, rfl, rfl, fun _ _ => Or.inr rfl, fun _ _ => ⟨hc.1.1, hc.2⟩⟩

theorem gone_fields (s : Wifi) (r : Nat) : (gone s r).d = s.d ∧ (gone s r).conn = false ∧ (gone s r).ipReady = false ∧ (gone s r).ipv4 = s.ipv4 ∧
    (gone s r).init = s.init ∧ (gone s r).allow = s.allow ∧ (gone s r).config = s.config ∧ (gone s r).asked = s.asked := by
  unfold gone logReason
  cases s.scanned <;> exact ⟨rfl, rfl, rfl, rfl, rfl, rfl, rfl, rfl⟩

theorem disc_fields (s : Wifi) (r : Nat) : (handle s (.disc r)).d = (if s.config then s.d else connect s.d) ∧ (handle s (.disc r)).conn = false ∧
    (handle s (.disc r)).ipReady = false ∧ (handle s (.disc r)).ipv4 = s.ipv4 ∧ (handle s (.disc r)).init = s.init ∧
    (handle s (.disc r)).allow = s.allow ∧ (handle s (.disc r)).config = s.config ∧ (handle s (.disc r)).asked = s.asked ∧ (handle s (.disc r)).scanned = true := by
  obtain ⟨_, g2, g3, g4, g5, g6, g7, g8⟩ := gone_fields s r
  exact ⟨rfl, g2, g3, g4, g5, g6, g7, g8, rfl⟩

theorem inv_deliver (s : Wifi) (h : Inv s) : Inv (deliver s) := by
  unfold deliver
  cases hq : s.d.q with
  | nil => exact h
  | cons e r =>
    obtain ⟨h1, h2, h3, h4, h5, h6, h7, h8, h9, h10, h11⟩ := h
    rw [hq] at h1 h2 h3 h9 h11
    dsimp only
    have h11' : kick e = false → s.asked = false → s.d.on = true → s.d.sta = true → s.d.linked = true ∨ s.d.trying = true ∨ ∃ e ∈ r, kick e = true := by
      intro hk a1 a2 a3
      rcases h11 a1 a2 a3 with x | x | ⟨y, hy1, hy2⟩
      · exact Or.inl x
      · exact Or.inr (Or.inl x)
      · rcases List.mem_cons.mp hy1 with hy | hy
        · rw [hy, hk] at hy2; cases hy2
        · exact Or.inr (Or.inr ⟨y, hy, hy2⟩)
    cases e with
    | stopped => exact ⟨h1, h2, h3, h4, h5, h6, h7, h8, h9, h10, h11' rfl⟩
    | started =>
      obtain ⟨c1, c2, c3, c4, c5, c6, c7⟩ := connect_facts { s.d with q := r }
      show Inv { s with scanned := false, d := connect { s.d with q := r } }
      refine ⟨?_, ?_, ?_, ?_, ?_, ?_, ?_, ?_, ?_, ?_, ?_⟩
      · show (connect { s.d with q := r }).q.foldl effC s.conn = (connect { s.d with q := r }).linked
        rw [c3, c5]; exact h1
      · show (connect { s.d with q := r }).q.foldl effI s.ipReady = ((connect { s.d with q := r }).ip != 0)
        rw [c4, c5]; exact h2
      · show (connect { s.d with q := r }).ip ≠ 0 → (connect { s.d with q := r }).q.foldl effA s.ipv4 = (connect { s.d with q := r }).ip
        rw [c4, c5]; exact h3
      · show (connect { s.d with q := r }).ip ≠ 0 → (connect { s.d with q := r }).linked = true
        rw [c4, c3]; exact h4
      · show (connect { s.d with q := r }).linked = true → (connect { s.d with q := r }).on = true
        rw [c1, c3]; exact h5
      · show (connect { s.d with q := r }).trying = true → (connect { s.d with q := r }).on = true ∧ (connect { s.d with q := r }).linked = false
        rw [c1, c3]; exact c7 h6
      · show s.allow = (connect { s.d with q := r }).on
        rw [c1]; exact h7
      · show (connect { s.d with q := r }).on = true → s.init = true
        rw [c1]; exact h8
      · show (connect { s.d with q := r }).linked = true → (connect { s.d with q := r }).q.foldl effS false = true
        rw [c3, c5]; exact h9
      · show s.asked = false → (connect { s.d with q := r }).on = true → (connect { s.d with q := r }).sta = !s.config
        rw [c1, c2]; exact h10
      · show s.asked = false → (connect { s.d with q := r }).on = true → (connect { s.d with q := r }).sta = true →
          (connect { s.d with q := r }).linked = true ∨ (connect { s.d with q := r }).trying = true ∨ ∃ e ∈ (connect { s.d with q := r }).q, kick e = true
        rw [c1, c2, c3]
        intro _ a2 a3
        rcases c6 a2 a3 with x | x
        · exact Or.inl x
        · exact Or.inr (Or.inl x)
    | connected => exact ⟨h1, h2, h3, h4, h5, h6, h7, h8, h9, h10, h11' rfl⟩
    | disc n =>
      obtain ⟨f1, f2, f3, f4, f5, f6, f7, f8, f9⟩ := disc_fields { s with d := { s.d with q := r } } n
      generalize handle { s with d := { s.d with q := r } } (.disc n) = t at f1 f2 f3 f4 f5 f6 f7 f8 f9
      have f1 : t.d = if s.config then { s.d with q := r } else connect { s.d with q := r } := f1
      have f4 : t.ipv4 = s.ipv4 := f4
      have f5 : t.init = s.init := f5
      have f6 : t.allow = s.allow := f6
      have f7 : t.config = s.config := f7
      have f8 : t.asked = s.asked := f8
      obtain ⟨c1, c2, c3, c4, c5, c6, c7⟩ := connect_facts { s.d with q := r }
      have g : t.d.on = s.d.on ∧ t.d.sta = s.d.sta ∧ t.d.linked = s.d.linked ∧ t.d.ip = s.d.ip ∧ t.d.q = r ∧
          (t.d.trying = true → s.d.on = true ∧ s.d.linked = false) ∧
          (s.config = false → s.d.on = true → s.d.sta = true → s.d.linked = true ∨ t.d.trying = true) := by
        rw [f1]
        cases s.config
        · exact ⟨c1, c2, c3, c4, c5, c7 h6, fun _ => c6⟩
        · exact ⟨rfl, rfl, rfl, rfl, rfl, h6, (fun h => by cases h)⟩
      obtain ⟨g1, g2, g3, g4, g5, g6, g7⟩ := g
      refine ⟨?_, ?_, ?_, ?_, ?_, ?_, ?_, ?_, ?_, ?_, ?_⟩
      · rw [g5, f2, g3]; exact h1
      · rw [g5, f3, g4]; exact h2
      · rw [g5, f4, g4]; exact h3
      · rw [g3, g4]; exact h4
      · rw [g1, g3]; exact h5
      · rw [g1, g3]; exact g6
      · rw [g1, f6]; exact h7
      · rw [g1, f5]; exact h8
      · rw [g3, g5, f9]; exact h9
      · rw [f8, g1, g2, f7]; exact h10
      · rw [f8, g1, g2, g3]
        intro a1 a2 a3
        have hm := h10 a1 a2
        rw [a3] at hm
        have hcf : s.config = false := by
          cases hc : s.config
          · rfl
          · rw [hc] at hm; cases hm
        rcases g7 hcf a2 a3 with x | x
        · exact Or.inl x
        · exact Or.inr (Or.inl x)
    | got a => exact ⟨h1, h2, h3, h4, h5, h6, h7, h8, h9, h10, h11' rfl⟩
    | lost => exact ⟨h1, h2, h3, h4, h5, h6, h7, h8, h9, h10, h11' rfl⟩

theorem grow {q : List Ev} {e : Ev} (h : ∃ x ∈ q, kick x = true) : ∃ x ∈ q ++ [e], kick x = true := by
  obtain ⟨x, h1, h2⟩ := h
  exact ⟨x, List.mem_append_left _ h1, h2⟩

theorem inv_env (s : Wifi) (e : Env) (h : Inv s) : Inv { s with d := env s.d e } := by
  have hh := h
  obtain ⟨h1, h2, h3, h4, h5, h6, h7, h8, h9, h10, h11⟩ := h
  cases e with
  | joins =>
    dsimp only [env]
    cases ht : s.d.trying
    · exact hh
    · rw [if_pos rfl]
      obtain ⟨t1, t2⟩ := h6 ht
      refine ⟨?_, ?_, ?_, fun _ => rfl, fun _ => t1, (fun h => by cases h), h7, h8, ?_, h10, fun _ _ _ => Or.inl rfl⟩
      · dsimp only
        rw [List.foldl_append]
        rfl
      · dsimp only
        rw [List.foldl_append]
        exact h2
      · intro hne
        exact absurd (ip_zero s hh t2) hne
      · intro _
        dsimp only
        rw [List.foldl_append]
        rfl
  | fails r =>
    dsimp only [env]
    cases ht : s.d.trying
    · exact hh
    · rw [if_pos rfl]
      obtain ⟨t1, t2⟩ := h6 ht
      have h0 := ip_zero s hh t2
      refine ⟨?_, ?_, ?_, h4, h5, (fun h => by cases h), h7, h8, ?_, h10, fun _ _ _ => Or.inr (Or.inr ⟨.disc r, List.mem_append_right _ List.mem_cons_self, rfl⟩)⟩
      · dsimp only
        rw [List.foldl_append, t2]
        rfl
      · dsimp only
        rw [List.foldl_append, h0]
        rfl
      · intro hne
        exact absurd h0 hne
      · intro _
        dsimp only
        rw [List.foldl_append]
        rfl
  | drops r =>
    dsimp only [env]
    cases hl : s.d.linked
    · exact hh
    · rw [if_pos rfl]
      refine ⟨?_, ?_, fun hne => absurd rfl hne, fun hne => absurd rfl hne, (fun h => by cases h), fun ht => ⟨(h6 ht).1, rfl⟩, h7, h8, (fun h => by cases h), h10,
        fun _ _ _ => Or.inr (Or.inr ⟨.disc r, List.mem_append_right _ List.mem_cons_self, rfl⟩)⟩
      · dsimp only
        rw [List.foldl_append]
        rfl
      · dsimp only
        rw [List.foldl_append]
        rfl
  | lease a =>
    dsimp only [env]
    split
    · rename_i hc
      simp only [Bool.and_eq_true, bne_iff_ne] at hc
      refine ⟨?_, ?_, ?_, fun _ => hc.1.1, h5, h6, h7, h8, ?_, h10, ?_⟩
      · dsimp only
        rw [List.foldl_append]
        exact h1
      · dsimp only
        rw [List.foldl_append]
        exact (bne_iff_ne.mpr hc.1.2).symm
      · intro _
        dsimp only
        rw [List.foldl_append]
        rfl
      · intro hl
        dsimp only
        rw [List.foldl_append]
        exact h9 hl
      · intro a1 a2 a3
        rcases h11 a1 a2 a3 with x | x | x
        · exact Or.inl x
        · exact Or.inr (Or.inl x)
        · exact Or.inr (Or.inr (grow x))
    · exact hh
  | expire =>
    dsimp only [env]
    split
    · rename_i hc
      simp only [Bool.and_eq_true, bne_iff_ne] at hc
      refine ⟨?_, ?_, fun hne => absurd rfl hne, fun hne => absurd rfl hne, h5, h6, h7, h8, ?_, h10, ?_⟩
      · dsimp only
        rw [List.foldl_append]
        exact h1
      · dsimp only
        rw [List.foldl_append]
        rfl
      · intro hl
        dsimp only
        rw [List.foldl_append]
        exact h9 hl
      · intro a1 a2 a3
        rcases h11 a1 a2 a3 with x | x | x
        · exact Or.inl x
        · exact Or.inr (Or.inl x)
        · exact Or.inr (Or.inr (grow x))
    · exact hh
  | late =>
    dsimp only [env]
    split
    · rename_i hc
      have hc : s.d.ip = 0 := beq_iff_eq.mp hc
      refine ⟨?_, ?_, fun hne => absurd hc hne, h4, h5, h6, h7, h8, ?_, h10, ?_⟩
      · dsimp only
        rw [List.foldl_append]
        exact h1
      · dsimp only
        rw [List.foldl_append, hc]
        rfl
      · intro hl
        dsimp only
        rw [List.foldl_append]
        exact h9 hl
      · intro a1 a2 a3
        rcases h11 a1 a2 a3 with x | x | x
        · exact Or.inl x
        · exact Or.inr (Or.inl x)
        · exact Or.inr (Or.inr (grow x))
    · exact hh

theorem inv_step (s : Wifi) (o : Op) (h : Inv s) : Inv (step s o) := by
  cases o with
  | setup => exact inv_setup s h
  | disable => exact inv_disable s h
  | configMode =>
    obtain ⟨h1, h2, h3, h4, h5, h6, h7, h8, h9, _, _⟩ := h
    exact ⟨h1, h2, h3, h4, h5, h6, h7, h8, h9, (fun h => by cases h), (fun h => by cases h)⟩
  | normalMode =>
    obtain ⟨h1, h2, h3, h4, h5, h6, h7, h8, h9, _, _⟩ := h
    exact ⟨h1, h2, h3, h4, h5, h6, h7, h8, h9, (fun h => by cases h), (fun h => by cases h)⟩
  | ask =>
    obtain ⟨h1, h2, h3, h4, h5, h6, h7, h8, h9, _, _⟩ := h
    exact ⟨h1, h2, h3, h4, h5, h6, h7, h8, h9, (fun h => by cases h), (fun h => by cases h)⟩
  | deliver => exact inv_deliver s h
  | env e => exact inv_env s e h

theorem inv_run (l : List Op) : ∀ s, Inv s → Inv (run s l) := by
  induction l with
  | nil => intro s h; exact h
  | cons o l ih => intro s h; exact ih (step s o) (inv_step s o h)

theorem deliver_facts (s : Wifi) : (deliver s).d.q = s.d.q.tail ∧ (deliver s).d.on = s.d.on ∧ (deliver s).d.linked = s.d.linked ∧
    (deliver s).d.ip = s.d.ip ∧ (deliver s).d.sta = s.d.sta ∧ (deliver s).config = s.config ∧ (deliver s).asked = s.asked := by
  unfold deliver
  cases hq : s.d.q with
  | nil => exact ⟨hq, rfl, rfl, rfl, rfl, rfl, rfl⟩
  | cons e r =>
    cases e with
    | started =>
      obtain ⟨c1, c2, c3, c4, c5, _, _⟩ := connect_facts { s.d with q := r }
      exact ⟨c5, c1, c3, c4, c2, rfl, rfl⟩
    | disc n =>
      obtain ⟨f1, _, _, _, _, _, f7, f8, _⟩ := disc_fields { s with d := { s.d with q := r } } n
      obtain ⟨c1, c2, c3, c4, c5, _, _⟩ := connect_facts { s.d with q := r }
      refine ⟨?_, ?_, ?_, ?_, ?_, f7, f8⟩ <;> dsimp only <;> rw [f1] <;> dsimp only <;> cases s.config
      · exact c5
      · rfl
      · exact c1
      · rfl
      · exact c3
      · rfl
      · exact c4
      · rfl
      · exact c2
      · rfl
    | stopped => exact ⟨rfl, rfl, rfl, rfl, rfl, rfl, rfl⟩
    | connected => exact ⟨rfl, rfl, rfl, rfl, rfl, rfl, rfl⟩
    | got a => exact ⟨rfl, rfl, rfl, rfl, rfl, rfl, rfl⟩
    | lost => exact ⟨rfl, rfl, rfl, rfl, rfl, rfl, rfl⟩

theorem drain_facts (n : Nat) : ∀ (s : Wifi), s.d.q.length = n →
    (run s (List.replicate n .deliver)).d.q = [] ∧ (run s (List.replicate n .deliver)).d.ip = s.d.ip ∧
    (run s (List.replicate n .deliver)).d.linked = s.d.linked ∧ (run s (List.replicate n .deliver)).d.on = s.d.on ∧
    (run s (List.replicate n .deliver)).config = s.config ∧ (run s (List.replicate n .deliver)).asked = s.asked := by
  induction n with
  | zero =>
    intro s h
    exact ⟨List.length_eq_zero_iff.mp h, rfl, rfl, rfl, rfl, rfl⟩
  | succ n ih =>
    intro s h
    obtain ⟨d1, d2, d3, d4, _, d6, d7⟩ := deliver_facts s
    have hl : (deliver s).d.q.length = n := by rw [d1, List.length_tail, h]; rfl
    obtain ⟨r1, r2, r3, r4, r5, r6⟩ := ih (deliver s) hl
    rw [List.replicate_succ]
    exact ⟨r1, r2.trans d4, r3.trans d3, r4.trans d2, r5.trans d6, r6.trans d7⟩

/-- There is a network. -/
abbrev online (d : Drv) : Prop := d.linked = true ∧ d.ip ≠ 0

/-- **Ready exactly when there is a network.** After any history, once the waiting events are handled, the interface is
ready exactly when it is connected and has an address, and the address it tells is that one. -/
theorem wifi_ready (l : List Op) :
    (isReady (settle (run fresh l)) = true ↔ online (run fresh l).d) ∧ getIP (settle (run fresh l)) = (run fresh l).d.ip := by
  have hi := inv_run l fresh inv_fresh
  generalize run fresh l = s at hi
  obtain ⟨r1, r2, r3, _⟩ := drain_facts s.d.q.length s rfl
  have hi2 : Inv (settle s) := inv_run _ s hi
  have q1 : (settle s).d.q = [] := r1
  have q2 : (settle s).d.ip = s.d.ip := r2
  have q3 : (settle s).d.linked = s.d.linked := r3
  have hc : (settle s).conn = s.d.linked := by have := hi2.conn; rw [q1, q3] at this; exact this
  have hp : (settle s).ipReady = (s.d.ip != 0) := by have := hi2.ip; rw [q1, q2] at this; exact this
  have hready : isReady (settle s) = (s.d.linked && (s.d.ip != 0)) := by unfold isReady; rw [hc, hp]
  constructor
  · rw [hready, Bool.and_eq_true, bne_iff_ne]
  · unfold getIP
    rw [hready]
    by_cases h : s.d.ip = 0
    · rw [h, Bool.and_comm]
      rfl
    · have hl := hi.ipLinked h
      rw [hl, if_pos (show (true && (s.d.ip != 0)) = true from bne_iff_ne.mpr h)]
      have := hi2.addr (by rw [q2]; exact h)
      rw [q1, q2] at this
      exact this

/-- An ordinary day: connected, set up again, connected again. -/
example : isReady (settle (run fresh [.setup, .deliver, .env .joins, .env (.lease 5), .deliver, .deliver, .setup, .deliver, .deliver, .deliver, .env .joins, .env (.lease 6)])) = true := by
  decide +kernel

/-- **It never gives up.** After any history, in normal mode, switched on and with no set-up outstanding, once the waiting
events are handled the interface is connected or an attempt to connect is going on. -/
theorem wifi_keeps_trying (l : List Op) (hon : (run fresh l).d.on = true) (hc : (run fresh l).config = false) (ha : (run fresh l).asked = false) :
    (settle (run fresh l)).d.linked = true ∨ (settle (run fresh l)).d.trying = true := by
  have hi := inv_run l fresh inv_fresh
  generalize run fresh l = s at hi hon hc ha
  obtain ⟨r1, r2, r3, r4, r5, r6⟩ := drain_facts s.d.q.length s rfl
  have hi2 : Inv (settle s) := inv_run _ s hi
  have q1 : (settle s).d.q = [] := r1
  have q4 : (settle s).d.on = true := r4.trans hon
  have q5 : (settle s).config = false := r5.trans hc
  have q6 : (settle s).asked = false := r6.trans ha
  have hsta : (settle s).d.sta = true := by rw [hi2.mode q6 q4, q5]; rfl
  rcases hi2.trys q6 q4 hsta with x | x | ⟨e, he, _⟩
  · exact Or.inl x
  · exact Or.inr x
  · rw [q1] at he
    cases he

/-- **It gets back.** From such a state without a connection, an attempt that succeeds and an address make it ready. -/
theorem wifi_gets_back (l : List Op) (hon : (run fresh l).d.on = true) (hc : (run fresh l).config = false) (ha : (run fresh l).asked = false)
    (hl : (run fresh l).d.linked = false) (a : Nat) (hne : a ≠ 0) :
    isReady (settle (run (settle (run fresh l)) [.env .joins, .env (.lease a)])) = true ∧
    getIP (settle (run (settle (run fresh l)) [.env .joins, .env (.lease a)])) = a := by
  have ht := wifi_keeps_trying l hon hc ha
  have hcomb : settle (run fresh l) = run fresh (l ++ List.replicate (run fresh l).d.q.length .deliver) := by
    unfold settle run
    rw [List.foldl_append]
  obtain ⟨r1, r2, r3, r4, r5, r6⟩ := drain_facts (run fresh l).d.q.length (run fresh l) rfl
  have q3 : (settle (run fresh l)).d.linked = false := r3.trans hl
  have ht : (settle (run fresh l)).d.trying = true := by
    rcases ht with x | x
    · rw [q3] at x; cases x
    · exact x
  have h0 : (settle (run fresh l)).d.ip = 0 := ip_zero _ (by rw [hcomb]; exact inv_run _ fresh inv_fresh) q3
  have hw := wifi_ready (l ++ List.replicate (run fresh l).d.q.length .deliver ++ [.env .joins, .env (.lease a)])
  have hrun : run fresh (l ++ List.replicate (run fresh l).d.q.length .deliver ++ [.env .joins, .env (.lease a)]) =
      run (settle (run fresh l)) [.env .joins, .env (.lease a)] := by
    rw [hcomb]
    unfold run
    rw [List.foldl_append]
  rw [hrun] at hw
  generalize settle (run fresh l) = t at hw ht h0
  have hd : (run t [.env .joins, .env (.lease a)]).d.linked = true ∧ (run t [.env .joins, .env (.lease a)]).d.ip = a := by
    have e1 : env t.d .joins = { t.d with trying := false, linked := true, q := t.d.q ++ [.connected] } := by
      dsimp only [env]
      rw [ht]
      rfl
    show (env (env t.d .joins) (.lease a)).linked = true ∧ (env (env t.d .joins) (.lease a)).ip = a
    rw [e1]
    dsimp only [env]
    rw [if_pos (show (true && a != 0 && a != t.d.ip) = true by
      rw [h0, Bool.true_and, bne_iff_ne.mpr hne]
      rfl)]
    exact ⟨rfl, rfl⟩
  exact ⟨hw.1.mpr ⟨hd.1, by rw [hd.2]; exact hne⟩, hw.2.trans hd.2⟩

/-- **Only `disable` switches it off**: after a set-up it stays on. -/
theorem wifi_on (s : Wifi) (l : List Op) (h : Op.disable ∉ l) : (run (setup s) l).d.on = true := by
  have key : ∀ (l : List Op) (t : Wifi), Op.disable ∉ l → t.d.on = true → (run t l).d.on = true := by
    intro l
    induction l with
    | nil => intro t _ h; exact h
    | cons o l ih =>
      intro t hn ho
      have : (step t o).d.on = true := by
        cases o with
        | setup => rfl
        | disable => exact absurd List.mem_cons_self hn
        | configMode => exact ho
        | normalMode => exact ho
        | ask => exact ho
        | deliver => exact (deliver_facts t).2.1.trans ho
        | env e => cases e <;> (show (env t.d _).on = true) <;> dsimp only [env] <;> split <;> exact ho
      exact ih (step t o) (fun hm => hn (List.mem_cons_of_mem _ hm)) this
  exact key l (setup s) h rfl

/-- The case of a device that lost its access point while it was in use. -/
example : (run fresh [.setup, .deliver, .env .joins, .env (.lease 5), .env (.drops 200)]).d.on = true ∧
    (run fresh [.setup, .deliver, .env .joins, .env (.lease 5), .env (.drops 200)]).d.linked = false ∧
    (run fresh [.setup, .deliver, .env .joins, .env (.lease 5), .env (.drops 200)]).asked = false := by decide +kernel

/-! ### The log -/

/-- The reasons that differ from the two before them (`p` the last one, `pp` the one before). -/
def news (p pp : Nat) : List Nat → List Nat
  | [] => []
  | r :: rs => if r = p ∨ r = pp then news r p rs else r :: news r p rs

/-- The ring holds the last two. -/
def holds (g : Ring) (p pp : Nat) : Prop := (g.idx = 1 ∧ g.r0 = p ∧ g.r1 = pp) ∨ (g.idx ≠ 1 ∧ g.r1 = p ∧ g.r0 = pp)

/-- **A reason gets into the log exactly when it is not one of the two before it.** -/
theorem log_exact (s : Wifi) (p pp : Nat) (hg : holds s.ring p pp) (rs : List Nat) : (rs.foldl logReason s).log = s.log ++ news p pp rs := by
  induction rs generalizing s p pp with
  | nil => exact (List.append_nil _).symm
  | cons r rs ih =>
    have hput : holds (s.ring.put r) r p := by
      unfold Ring.put
      rcases hg with ⟨h1, h2, h3⟩ | ⟨h1, h2, h3⟩
      · rw [if_pos (beq_iff_eq.mpr h1)]
        exact Or.inr ⟨(fun h : 2 = 1 => by cases h), rfl, h2⟩
      · rw [if_neg (fun h => h1 (beq_iff_eq.mp h))]
        exact Or.inl ⟨rfl, rfl, h2⟩
    have hhas : s.ring.has r = true ↔ r = p ∨ r = pp := by
      unfold Ring.has
      rw [Bool.or_eq_true, beq_iff_eq, beq_iff_eq]
      rcases hg with ⟨_, h2, h3⟩ | ⟨_, h2, h3⟩
      · rw [h2, h3]
        exact ⟨fun h => h.imp Eq.symm Eq.symm, fun h => h.imp Eq.symm Eq.symm⟩
      · rw [h2, h3]
        exact ⟨fun h => h.symm.imp Eq.symm Eq.symm, fun h => (h.imp Eq.symm Eq.symm).symm⟩
    rw [List.foldl_cons, ih (logReason s r) r p hput]
    by_cases h : r = p ∨ r = pp
    · rw [show news p pp (r :: rs) = news r p rs from if_pos h]
      unfold logReason
      rw [if_pos (hhas.mpr h)]
    · rw [show news p pp (r :: rs) = r :: news r p rs from if_neg h]
      unfold logReason
      rw [if_neg (fun hh => h (hhas.mp hh))]
      dsimp only
      rw [List.append_assoc]
      rfl

example : holds fresh.ring 0 0 ∧ news 0 0 [201, 201, 8, 201, 15, 201] = [201, 8, 15] := ⟨Or.inr ⟨by decide, rfl, rfl⟩, by decide⟩

/-- The full claim: when a working connection is lost, the reason gets into the log. -/
def LossLogged : Prop := ∀ (l : List Op) (r : Nat), (run fresh l).d.q = [] → (run fresh l).d.linked = true →
  (run (run fresh l) [.env (.drops r), .deliver]).log = (run fresh l).log ++ [r]

/-- **Partial: it does, unless it is one of the two last reasons.** Missing: a connection that has worked in between does
not make the reason new (`loss_logged_violation`). -/
theorem loss_logged_partial (l : List Op) (r : Nat) (hq : (run fresh l).d.q = []) (hl : (run fresh l).d.linked = true)
    (h0 : (run fresh l).ring.r0 ≠ r) (h1 : (run fresh l).ring.r1 ≠ r) :
    (run (run fresh l) [.env (.drops r), .deliver]).log = (run fresh l).log ++ [r] := by
  have hi := inv_run l fresh inv_fresh
  generalize run fresh l = s at hi hq hl h0 h1
  have hsc : s.scanned = true := by have := hi.scan hl; rw [hq] at this; exact this
  have e1 : env s.d (.drops r) = { s.d with linked := false, ip := 0, q := [.disc r] } := by
    dsimp only [env]
    rw [hl, hq]
    rfl
  show (deliver { s with d := env s.d (.drops r) }).log = s.log ++ [r]
  rw [e1]
  unfold deliver
  dsimp only [handle]
  unfold gone
  dsimp only
  rw [hsc, if_pos rfl]
  unfold logReason
  dsimp only
  rw [if_neg (fun h => by
    unfold Ring.has at h
    rw [Bool.or_eq_true, beq_iff_eq, beq_iff_eq] at h
    rcases h with h | h
    · exact h0 h
    · exact h1 h)]

/-- **Violation.** The access point goes away, comes back, the device works for any time, and the access point goes away
again: the second time is not in the log. -/
theorem loss_logged_violation : ¬ LossLogged := by
  intro h
  have := h [.setup, .deliver, .env .joins, .env (.lease 5), .deliver, .deliver, .env (.drops 200), .deliver, .env .joins, .env (.lease 5), .deliver, .deliver] 200
    (by decide +kernel) (by decide +kernel)
  revert this
  decide +kernel

/-- The full claim about the state of the device: the address in it is the address there is. -/
def StateAddress : Prop := ∀ l : List Op, stateIP (settle (run fresh l)) = (run fresh l).d.ip

/-- **Partial: it is, while there is a network.** Missing: afterwards (`state_address_violation`). -/
theorem state_address_partial (l : List Op) (h : online (run fresh l).d) : stateIP (settle (run fresh l)) = (run fresh l).d.ip := by
  obtain ⟨h1, h2⟩ := wifi_ready l
  have hr := h1.mpr h
  unfold getIP at h2
  rw [if_pos hr] at h2
  exact h2

/-- **Violation.** The connection is gone, the old address is still told. -/
theorem state_address_violation : ¬ StateAddress := by
  intro h
  have := h [.setup, .deliver, .env .joins, .env (.lease 5), .deliver, .deliver, .env (.drops 200)]
  revert this
  decide +kernel

end Verif.Link.Wifi
