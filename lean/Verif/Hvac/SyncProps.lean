import Verif.Hvac.Sync
/-!
# Thermostat: the weekly schedules are the same on both sides
-/
namespace Verif.Hvac.Sync

set_option linter.unusedSectionVars false

variable {α : Type} [DecidableEq α]

/-! ## Specification -/

/-- Nothing is under way and the device has nothing to send. -/
structure Quiet (y : Sys α) : Prop where
  conn : y.conn = true
  fin : y.dev.fin = true
  up : y.up = []
  down : y.down = []
  flag : y.dev.flag = 0

/-- The last word on a schedule: the value if it was spoken on the device. -/
def said (e : Env α) (a : Bool) (w : Option α) : Ev α → Option α
  | .change b v => if b = a then some v else w
  | .edit b _ => if b = a ∧ used e b = true then none else w
  | _ => w

/-- The last word in a history. -/
def lastWord (e : Env α) (a : Bool) (es : List (Ev α)) : Option α := es.foldl (said e a) none

/-- The beginning: a device with stored schedules, not connected. -/
def start (s : Bool → α) (srv : Bool → Option α) : Sys α := { dev := { sched := s }, srv := srv }

/-- When nothing is under way, the server has every schedule in use of the device, and if the last word on
it was spoken on the device it is that one. -/
def AgreeAfter (e : Env α) (s : Bool → α) (srv : Bool → Option α) (es : List (Ev α)) : Prop :=
  Quiet (play e es (start s srv)) → ∀ a, used e a = true → (play e es (start s srv)).srv a = some ((play e es (start s srv)).dev.sched a) ∧
  ∀ v, lastWord e a es = some v → (play e es (start s srv)).dev.sched a = v

/-- After every history. -/
def Agree (e : Env α) : Prop := ∀ s srv es, AgreeAfter e s srv es

/-- What the histories have to keep away from: a change on the device while connected needs all answers
to be there and no schedule of the server to be under way after the handshake; one on the server needs
a device at rest and a valid schedule; a connection must not end between the two messages; the server
accepts; and the protocol layer takes both messages or none. -/
def Fair (e : Env α) (y : Sys α) : Ev α → Prop
  | .change _ _ => y.conn = true → y.up = [] ∧ (∀ a ok, .result a ok ∉ y.down) ∧ (y.dev.fin = true → ∀ a c, .config a c ∉ y.down)
  | .edit a v => y.conn = true → y.dev.fin = true ∧ y.dev.flag = 0 ∧ y.up = [] ∧ (∀ m ∈ y.down, ∃ a c, m = .config a c) ∧ e.valid a v = true
  | .connect | .drop | .restart => y.dev.flag = 0 → y.up = []
  | .take ok => ok = true
  | .deliver => True
  | .pass okM okA => okM = true → okA = true

/-- All along a history. -/
def AllFair (e : Env α) : List (Ev α) → Sys α → Prop
  | [], _ => True
  | ev :: es, y => Fair e y ev ∧ AllFair e es (turn e y ev)

/-! ## The invariant -/

/-- A schedule is the same on both sides. -/
def Same (y : Sys α) (a : Bool) : Prop := y.srv a = some (y.dev.sched a)

/-- Before the end of the handshake. -/
structure Shake (e : Env α) (y : Sys α) : Prop where
  fin : y.dev.fin = false
  up : y.up = []
  flag : y.dev.flag ≤ 1
  down : ∃ l, y.down = l ++ [.finished] ∧ ∀ m ∈ l, ∃ a, m = .config a (y.srv a)
  same : ∀ a, used e a = true → y.dev.flag = 1 ∨ y.dev.got a = false ∨ Same y a

/-- Schedules of the server under way. -/
def edits (cs : List (Bool × α)) : List (Down α) := cs.map fun p => .config p.1 (some p.2)

/-- What the device will have when they have arrived. -/
def settled (s : Bool → α) (cs : List (Bool × α)) : Bool → α := cs.foldl (fun s p => upd s p.1 p.2) s

/-- After it. -/
inductive Talk (e : Env α) (last : Bool → Option α) (y : Sys α) : Prop where
  | rest (cs : List (Bool × α)) (flag : y.dev.flag = 0) (up : y.up = []) (down : y.down = edits cs)
      (ok : ∀ p ∈ cs, e.valid p.1 p.2 = true ∧ last p.1 = none)
      (same : ∀ a, used e a = true → y.srv a = some (settled y.dev.sched cs a))
  | pending (flag : y.dev.flag = 1) (up : y.up = []) (down : y.down = [])
  | asked2 (t : e.thermo = true) (flag : y.dev.flag = 2) (up : y.up = [(false, y.dev.sched false), (true, y.dev.sched true)])
      (down : y.down = [])
  | took1 (t : e.thermo = true) (flag : y.dev.flag = 2) (up : y.up = [(true, y.dev.sched true)])
      (down : y.down = [.result false true]) (m : Same y false)
  | took2 (t : e.thermo = true) (flag : y.dev.flag = 2) (up : y.up = []) (down : y.down = [.result false true, .result true true])
      (m : Same y false) (a : Same y true)
  | half (t : e.thermo = true) (flag : y.dev.flag = 0) (up : y.up = [(true, y.dev.sched true)]) (down : y.down = [])
      (m : Same y false)
  | late (t : e.thermo = true) (flag : y.dev.flag = 0) (up : y.up = []) (down : y.down = [.result true true])
      (m : Same y false) (a : Same y true)
  | asked1 (t : e.thermo = false) (flag : y.dev.flag = 2) (up : y.up = [(false, y.dev.sched false)]) (down : y.down = [])
  | took (t : e.thermo = false) (flag : y.dev.flag = 2) (up : y.up = []) (down : y.down = [.result false true]) (m : Same y false)

/-- A last word spoken on the device is kept. -/
def Kept (y : Sys α) (a : Bool) (v : α) : Prop :=
  y.dev.sched a = v ∧ ((y.dev.flag ≠ 0 ∧ y.dev.saved = true) ∨ y.srv a = some v ∨ (y.dev.flag = 0 ∧ y.up ≠ []))

/-- The invariant. -/
structure Inv (e : Env α) (last : Bool → Option α) (y : Sys α) : Prop where
  kept : ∀ a, used e a = true → ∀ v, last a = some v → Kept y a v
  off : y.conn = false → y.up = [] ∧ y.down = []
  link : y.conn = true → Shake e y ∨ (y.dev.fin = true ∧ Talk e last y)

theorem upd_same {β : Type} (f : Bool → β) (a : Bool) (v : β) : upd f a v a = v := by unfold upd; exact if_pos rfl

theorem upd_other {β : Type} (f : Bool → β) {a b : Bool} (v : β) (h : b ≠ a) : upd f a v b = f b := by
  unfold upd; exact if_neg h

theorem store_fields (d : Dev α) (a : Bool) (v : α) : (store d a v).sched = upd d.sched a v ∧ (store d a v).flag = d.flag ∧
    (store d a v).fin = d.fin ∧ (store d a v).got = d.got := by
  unfold store
  by_cases h : d.sched a = v
  · rw [if_pos h]
    refine ⟨?_, rfl, rfl, rfl⟩
    funext b
    by_cases hb : b = a
    · rw [hb, upd_same, h]
    · rw [upd_other _ _ hb]
  · rw [if_neg h]; exact ⟨rfl, rfl, rfl, rfl⟩

theorem used_main (e : Env α) : used e false = true := rfl

theorem used_alt {e : Env α} {a : Bool} (h : used e a = true) (ha : a = true) : e.thermo = true := by
  subst ha; simpa [used] using h

theorem used_cases {e : Env α} {P : Bool → Prop} (hm : P false) (ha : e.thermo = true → P true) :
    ∀ a, used e a = true → P a := by
  intro a h
  cases a with
  | false => exact hm
  | true => exact ha (used_alt h rfl)

/-- Off line only the last words matter. -/
theorem inv_off {e : Env α} {last : Bool → Option α} {y : Sys α} (hc : y.conn = false)
    (hu : y.up = []) (hd : y.down = []) (h : ∀ a, used e a = true → ∀ v, last a = some v → Kept y a v) : Inv e last y :=
  ⟨h, fun _ => ⟨hu, hd⟩, fun q => by rw [hc] at q; cases q⟩

theorem inv_on {e : Env α} {last : Bool → Option α} {y : Sys α} (hc : y.conn = true)
    (h : ∀ a, used e a = true → ∀ v, last a = some v → Kept y a v) (hl : Shake e y ∨ (y.dev.fin = true ∧ Talk e last y)) :
    Inv e last y := ⟨h, (fun q => by rw [hc] at q; cases q), fun _ => hl⟩

/-- When the connection ends the last words are safe. -/
theorem kept_drop {y : Sys α} {a : Bool} {v : α} (h : Kept y a v) (hf : y.dev.flag = 0 → y.up = []) :
    y.dev.sched a = v ∧ ((y.dev.flag ≠ 0 ∧ y.dev.saved = true) ∨ y.srv a = some v) := by
  refine ⟨h.1, ?_⟩
  rcases h.2 with q | q | q
  · exact Or.inl q
  · exact Or.inr q
  · exact absurd (hf q.1) q.2

theorem greeting_shape (e : Env α) (srv : Bool → Option α) :
    ∃ l, greeting e srv = l ++ [.finished] ∧ ∀ m ∈ l, ∃ a, m = Down.config a (srv a) := by
  refine ⟨_, rfl, ?_⟩
  intro m hm
  rcases List.mem_cons.mp hm with q | q
  · exact ⟨false, q⟩
  · by_cases ht : e.thermo = true
    · rw [if_pos ht] at q
      exact ⟨true, List.mem_singleton.mp q⟩
    · rw [if_neg ht] at q; cases q

/-- A schedule of the server in the handshake. -/
theorem shake_config {e : Env α} {last : Bool → Option α} {y : Sys α} {l : List (Down α)} {a : Bool}
    (hk : ∀ a, used e a = true → ∀ v, last a = some v → Kept y a v) (hc : y.conn = true) (hs : Shake e y)
    (hl : ∀ m ∈ l, ∃ a, m = .config a (y.srv a)) :
    Inv e last { y with dev := receive e y.dev a (y.srv a), down := l ++ [.finished] } := by
  have hup := hs.up
  have hflag := hs.flag
  by_cases h0 : y.dev.flag = 0
  · have hr : ∀ c, receive e y.dev a c = match c with
        | none => { y.dev with flag := 1 }
        | some v => if e.valid a v then store { y.dev with got := upd y.dev.got a true } a v else y.dev := by
      intro c
      unfold receive
      exact if_neg (fun q => q h0)
    have kk : ∀ b, used e b = true → ∀ v, last b = some v → y.dev.sched b = v ∧ y.srv b = some v := by
      intro b hb v hv
      have := hk b hb v hv
      refine ⟨this.1, ?_⟩
      rcases this.2 with q | q | q
      · exact absurd h0 q.1
      · exact q
      · exact absurd hup q.2
    rw [hr]
    cases hsrv : y.srv a with
    | none =>
      refine inv_on hc (fun b hb v hv => ⟨(kk b hb v hv).1, Or.inr (Or.inl (kk b hb v hv).2)⟩) (Or.inl ⟨hs.fin, hup, Nat.le_refl 1, ⟨l, rfl, hl⟩, fun b hb => Or.inl rfl⟩)
    | some v =>
      dsimp only
      by_cases hv : e.valid a v = true
      · rw [if_pos hv]
        have hf := store_fields { y.dev with got := upd y.dev.got a true } a v
        generalize store { y.dev with got := upd y.dev.got a true } a v = d at hf ⊢
        obtain ⟨f1, f2, f3, f4⟩ := hf
        dsimp only at f1 f2 f3 f4
        refine inv_on hc ?_ (Or.inl ⟨f3.trans hs.fin, hup, by dsimp only; rw [f2]; exact hflag, ⟨l, rfl, hl⟩, ?_⟩)
        · intro b hb w hw
          refine ⟨?_, Or.inr (Or.inl (kk b hb w hw).2)⟩
          dsimp only
          rw [f1]
          by_cases hba : b = a
          · rw [hba, upd_same]
            have := (kk b hb w hw).2
            rw [hba, hsrv] at this
            exact Option.some.inj this
          · rw [upd_other _ _ hba]; exact (kk b hb w hw).1
        · intro b hb
          dsimp only
          by_cases hba : b = a
          · right; right
            unfold Same
            dsimp only
            rw [f1, hba, upd_same, hsrv]
          · rw [f2, f4, upd_other _ _ hba]
            rcases hs.same b hb with q | q | q
            · exact Or.inl q
            · exact Or.inr (Or.inl q)
            · right; right
              unfold Same at q ⊢
              dsimp only
              rw [f1, upd_other _ _ hba]; exact q
      · rw [if_neg hv]
        exact inv_on hc hk (Or.inl ⟨hs.fin, hup, hflag, ⟨l, rfl, hl⟩, hs.same⟩)
  · have h1 : y.dev.flag = 1 := by omega
    have hr : receive e y.dev a (y.srv a) = { y.dev with got := upd y.dev.got a true } := by
      unfold receive; exact if_pos h0
    rw [hr]
    exact inv_on hc hk (Or.inl ⟨hs.fin, hup, hflag, ⟨l, rfl, hl⟩, fun b hb => Or.inl h1⟩)

/-- The end of the handshake. -/
theorem shake_finish {e : Env α} {last : Bool → Option α} {y : Sys α}
    (hk : ∀ a, used e a = true → ∀ v, last a = some v → Kept y a v) (hc : y.conn = true) (hs : Shake e y) :
    Inv e last { y with dev := finish e y.dev, down := [] } := by
  have hup := hs.up
  have hflag := hs.flag
  unfold finish
  by_cases h : y.dev.got false = false ∨ (e.thermo = true ∧ y.dev.got true = false)
  · rw [if_pos h]
    refine inv_on hc ?_ (Or.inr ⟨rfl, .pending rfl hup rfl⟩)
    intro b hb v hv
    have := hk b hb v hv
    refine ⟨this.1, ?_⟩
    rcases this.2 with q | q | q
    · exact Or.inl ⟨Nat.one_ne_zero, q.2⟩
    · exact Or.inr (Or.inl q)
    · exact absurd hup q.2
  · rw [if_neg h]
    by_cases h1 : y.dev.flag = 1
    · exact inv_on hc hk (Or.inr ⟨rfl, .pending h1 hup rfl⟩)
    · refine inv_on hc hk (Or.inr ⟨rfl, .rest [] (by dsimp only; omega) hup rfl (fun p hp => by cases hp) ?_⟩)
      intro b hb
      rcases hs.same b hb with q | q | q
      · exact absurd q h1
      · exfalso
        apply h
        cases b with
        | false => exact Or.inl q
        | true => exact Or.inr ⟨used_alt hb rfl, q⟩
      · exact q

/-- A schedule of the server at rest. -/
theorem rest_config {e : Env α} {last : Bool → Option α} {y : Sys α} {p : Bool × α} {cs : List (Bool × α)}
    (hk : ∀ a, used e a = true → ∀ v, last a = some v → Kept y a v) (hc : y.conn = true) (hfin : y.dev.fin = true)
    (flag : y.dev.flag = 0) (up : y.up = []) (ok : ∀ q ∈ p :: cs, e.valid q.1 q.2 = true ∧ last q.1 = none)
    (same : ∀ a, used e a = true → y.srv a = some (settled y.dev.sched (p :: cs) a)) :
    Inv e last { y with dev := receive e y.dev p.1 (some p.2), down := edits cs } := by
  have hp := ok p (List.mem_cons_self ..)
  have hr : receive e y.dev p.1 (some p.2) = store { y.dev with got := upd y.dev.got p.1 true } p.1 p.2 := by
    unfold receive
    rw [if_neg (fun q => q flag)]
    exact if_pos hp.1
  rw [hr]
  have hf := store_fields { y.dev with got := upd y.dev.got p.1 true } p.1 p.2
  generalize store { y.dev with got := upd y.dev.got p.1 true } p.1 p.2 = d at hf ⊢
  obtain ⟨f1, f2, f3, f4⟩ := hf
  dsimp only at f1 f2 f3 f4
  refine inv_on hc ?_ (Or.inr ⟨f3.trans hfin, .rest cs (f2.trans flag) up rfl (fun q hq => ok q (List.mem_cons_of_mem _ hq)) ?_⟩)
  · intro b hb v hv
    have hba : b ≠ p.1 := fun q => by rw [q, hp.2] at hv; cases hv
    have := hk b hb v hv
    refine ⟨?_, ?_⟩
    · dsimp only; rw [f1, upd_other _ _ hba]; exact this.1
    · dsimp only
      rcases this.2 with q | q | q
      · exact absurd flag q.1
      · exact Or.inr (Or.inl q)
      · exact absurd up q.2
  · intro b hb
    dsimp only
    rw [f1]
    exact same b hb

theorem settled_append (s : Bool → α) (cs : List (Bool × α)) (p : Bool × α) :
    settled s (cs ++ [p]) = upd (settled s cs) p.1 p.2 := by
  unfold settled; rw [List.foldl_append]; rfl

theorem said_other {e : Env α} {a : Bool} {w : Option α} {ev : Ev α} (h : (∀ b v, ev ≠ .change b v) ∧ ∀ b v, ev ≠ .edit b v) :
    said e a w ev = w := by
  cases ev with
  | change b v => exact absurd rfl (h.1 b v)
  | edit b v => exact absurd rfl (h.2 b v)
  | _ => rfl

theorem edits_mem {cs : List (Bool × α)} {p : Bool × α} (h : p ∈ cs) : Down.config p.1 (some p.2) ∈ edits cs :=
  List.mem_map.mpr ⟨p, h, rfl⟩

theorem turn_change {e : Env α} {last : Bool → Option α} {y : Sys α} {a : Bool} {v : α} (hi : Inv e last y)
    (hf : Fair e y (.change a v)) : Inv e (fun b => said e b (last b) (.change a v)) (turn e y (.change a v)) := by
  refine ⟨?_, hi.off, ?_⟩
  · intro b hb w hw
    refine ⟨?_, Or.inl ⟨Nat.one_ne_zero, rfl⟩⟩
    show upd y.dev.sched a v b = w
    dsimp only [said] at hw
    by_cases hba : a = b
    · rw [if_pos hba] at hw
      rw [← hba, upd_same]; exact Option.some.inj hw
    · rw [if_neg hba] at hw
      rw [upd_other _ _ (fun q => hba q.symm)]; exact (hi.kept b hb w hw).1
  · intro hc
    obtain ⟨g1, g2, g3⟩ := hf hc
    rcases hi.link hc with hs | ⟨hfin, ht⟩
    · exact Or.inl ⟨hs.fin, hs.up, Nat.le_refl 1, hs.down, fun b hb => Or.inl rfl⟩
    · refine Or.inr ⟨hfin, .pending rfl g1 ?_⟩
      show y.down = []
      cases ht with
      | rest cs flag up down ok same =>
        rw [down]
        cases cs with
        | nil => rfl
        | cons p cs =>
          exact absurd (by rw [down]; exact edits_mem (List.mem_cons_self ..)) (g3 hfin p.1 (some p.2))
      | pending flag up down => exact down
      | asked2 t flag up down => exact down
      | took1 t flag up down m => rw [g1] at up; cases up
      | took2 t flag up down m a => exact absurd (by rw [down]; exact List.mem_cons_self ..) (g2 false true)
      | half t flag up down m => exact down
      | late t flag up down m a => exact absurd (by rw [down]; exact List.mem_cons_self ..) (g2 true true)
      | asked1 t flag up down => exact down
      | took t flag up down m => exact absurd (by rw [down]; exact List.mem_cons_self ..) (g2 false true)

theorem turn_edit {e : Env α} {last : Bool → Option α} {y : Sys α} {a : Bool} {v : α} (hi : Inv e last y)
    (hf : Fair e y (.edit a v)) : Inv e (fun b => said e b (last b) (.edit a v)) (turn e y (.edit a v)) := by
  by_cases hu : used e a = true
  · have ht : turn e y (.edit a v) = { y with srv := upd y.srv a (some v), down := if y.conn then y.down ++ [.config a (some v)] else y.down } :=
      if_pos hu
    rw [ht]
    have hk : ∀ b, used e b = true → ∀ w, said e b (last b) (.edit a v) = some w →
        Kept { y with srv := upd y.srv a (some v), down := if y.conn then y.down ++ [.config a (some v)] else y.down } b w := by
      intro b hb w hw
      dsimp only [said] at hw
      by_cases hba : a = b
      · rw [if_pos ⟨hba, hu⟩] at hw; cases hw
      · rw [if_neg (fun q => hba q.1)] at hw
        have := hi.kept b hb w hw
        refine ⟨this.1, ?_⟩
        show _ ∨ upd y.srv a (some v) b = some w ∨ _
        rw [upd_other _ _ (fun q => hba q.symm)]
        exact this.2
    refine ⟨hk, fun q => ?_, ?_⟩
    · dsimp only at q ⊢
      rw [q]
      exact ⟨(hi.off q).1, (hi.off q).2⟩
    intro hc
    dsimp only at hc
    obtain ⟨g1, g2, g3, g4, g5⟩ := hf hc
    rcases hi.link hc with hs | ⟨hfin, ht⟩
    · rw [hs.fin] at g1; cases g1
    · refine Or.inr ⟨hfin, ?_⟩
      cases ht with
      | rest cs flag up down ok same =>
        refine .rest (cs ++ [(a, v)]) flag up ?_ ?_ ?_
        · show (if y.conn then y.down ++ [.config a (some v)] else y.down) = _
          rw [if_pos hc, down]
          unfold edits
          rw [List.map_append]; rfl
        · intro p hp
          rcases List.mem_append.mp hp with q | q
          · refine ⟨(ok p q).1, ?_⟩
            dsimp only [said]
            by_cases hba : a = p.1
            · exact if_pos ⟨hba, hu⟩
            · rw [if_neg (fun q => hba q.1)]; exact (ok p q).2
          · rw [List.mem_singleton.mp q]
            exact ⟨g5, if_pos ⟨rfl, hu⟩⟩
        · intro b hb
          show upd y.srv a (some v) b = _
          rw [settled_append]
          by_cases hba : b = a
          · subst hba
            rw [upd_same]
            show _ = some (upd _ b v b)
            rw [upd_same]
          · rw [upd_other _ _ hba, same b hb]
            show _ = some (upd _ a v b)
            rw [upd_other _ _ hba]
      | pending flag up down => rw [g2] at flag; cases flag
      | asked2 t flag up down => rw [g2] at flag; cases flag
      | took1 t flag up down m => rw [g2] at flag; cases flag
      | took2 t flag up down m a => rw [g2] at flag; cases flag
      | half t flag up down m => rw [g3] at up; cases up
      | late t flag up down m a' =>
        obtain ⟨b, c, q⟩ := g4 (.result true true) (by rw [down]; exact List.mem_cons_self ..)
        cases q
      | asked1 t flag up down => rw [g2] at flag; cases flag
      | took t flag up down m => rw [g2] at flag; cases flag
  · have ht : turn e y (.edit a v) = y := if_neg hu
    rw [ht]
    have hl : (fun b => said e b (last b) (.edit a v)) = last := by
      funext b
      exact if_neg (fun q => hu q.2)
    rw [hl]; exact hi

theorem kept_take {y : Sys α} {a b : Bool} {v : α} {up : List (Bool × α)} {down : List (Down α)} (hk : Kept y b v)
    (h : y.dev.flag = 0 → b = a ∨ Same y b) :
    Kept { y with srv := upd y.srv a (some (y.dev.sched a)), up := up, down := down } b v := by
  refine ⟨hk.1, ?_⟩
  show _ ∨ upd y.srv a (some (y.dev.sched a)) b = some v ∨ _
  by_cases hba : b = a
  · right; left
    subst hba
    rw [upd_same]; exact congrArg some hk.1
  · rw [upd_other _ _ hba]
    rcases hk.2 with q | q | q
    · exact Or.inl q
    · exact Or.inr (Or.inl q)
    · rcases h q.1 with r | r
      · exact absurd r hba
      · right; left; rw [← hk.1]; exact r

theorem same_taken (y : Sys α) (a : Bool) (up : List (Bool × α)) (down : List (Down α)) :
    Same { y with srv := upd y.srv a (some (y.dev.sched a)), up := up, down := down } a := upd_same _ _ _

theorem same_main {y : Sys α} {c : Option α} {up : List (Bool × α)} {down : List (Down α)} (h : Same y false) :
    Same { y with srv := upd y.srv true c, up := up, down := down } false := by
  show upd y.srv true c false = _
  rw [upd_other _ _ Bool.false_ne_true]; exact h

theorem turn_take {e : Env α} {last : Bool → Option α} {y : Sys α} {ok : Bool} (hi : Inv e last y)
    (hf : ok = true) : Inv e last (turn e y (.take ok)) := by
  subst hf
  have nothing : y.up = [] → Inv e last (turn e y (.take true)) := by
    intro h
    have : turn e y (.take true) = y := by unfold turn; rw [h]
    rw [this]; exact hi
  cases hc : y.conn with
  | false => exact nothing (hi.off hc).1
  | true =>
  have goes : ∀ a v up, y.up = (a, v) :: up → turn e y (.take true) =
      { y with srv := upd y.srv a (some v), up := up, down := y.down ++ [.result a true] } := by
    intro a v up h
    unfold turn; rw [h]; rfl
  rcases hi.link hc with hs | ⟨hfin, ht⟩
  · exact nothing hs.up
  · cases ht with
    | rest cs flag up down ok same => exact nothing up
    | pending flag up down => exact nothing up
    | took2 t flag up down m a => exact nothing up
    | late t flag up down m a => exact nothing up
    | took t flag up down m => exact nothing up
    | asked2 t flag up down =>
      rw [goes _ _ _ up]
      exact inv_on hc (fun b hb v hv => kept_take (hi.kept b hb v hv) (fun q => by rw [flag] at q; cases q))
        (Or.inr ⟨hfin, .took1 t flag rfl (by dsimp only; rw [down]; rfl) (same_taken ..)⟩)
    | took1 t flag up down m =>
      rw [goes _ _ _ up]
      exact inv_on hc (fun b hb v hv => kept_take (hi.kept b hb v hv) (fun q => by rw [flag] at q; cases q))
        (Or.inr ⟨hfin, .took2 t flag rfl (by dsimp only; rw [down]; rfl) (same_main m) (same_taken ..)⟩)
    | half t flag up down m =>
      rw [goes _ _ _ up]
      refine inv_on hc (fun b hb v hv => kept_take (hi.kept b hb v hv) (fun q => ?_))
        (Or.inr ⟨hfin, .late t flag rfl (by dsimp only; rw [down]; rfl) (same_main m) (same_taken ..)⟩)
      cases b with
      | false => exact Or.inr m
      | true => exact Or.inl rfl
    | asked1 t flag up down =>
      rw [goes _ _ _ up]
      exact inv_on hc (fun b hb v hv => kept_take (hi.kept b hb v hv) (fun q => by rw [flag] at q; cases q))
        (Or.inr ⟨hfin, .took t flag rfl (by dsimp only; rw [down]; rfl) (same_taken ..)⟩)

theorem answer_fields (d : Dev α) : (answer d).sched = d.sched ∧ (answer d).flag = 0 ∧ (answer d).fin = d.fin := by
  unfold answer
  by_cases h : d.flag ≠ 0
  · rw [if_pos h]; exact ⟨rfl, rfl, rfl⟩
  · rw [if_neg h]; exact ⟨rfl, by omega, rfl⟩

theorem turn_deliver {e : Env α} {last : Bool → Option α} {y : Sys α} (hi : Inv e last y) :
    Inv e last (turn e y .deliver) := by
  have nothing : y.down = [] → Inv e last (turn e y .deliver) := by
    intro h
    have : turn e y .deliver = y := by unfold turn; rw [h]
    rw [this]; exact hi
  cases hc : y.conn with
  | false => exact nothing (hi.off hc).2
  | true =>
  have goes : ∀ m down, y.down = m :: down → turn e y .deliver = { y with dev := handle e y.dev m, down := down } := by
    intro m down h
    unfold turn; rw [h]
  obtain ⟨f1, f2, f3⟩ := answer_fields y.dev
  rcases hi.link hc with hs | ⟨hfin, ht⟩
  · obtain ⟨l, h1, h2⟩ := hs.down
    cases l with
    | nil =>
      rw [goes _ _ h1]
      exact shake_finish hi.kept hc hs
    | cons m l =>
      obtain ⟨a, ha⟩ := h2 m (List.mem_cons_self ..)
      rw [goes _ _ h1, ha]
      exact shake_config hi.kept hc hs (fun m hm => h2 m (List.mem_cons_of_mem _ hm))
  · cases ht with
    | rest cs flag up down ok same =>
      cases cs with
      | nil => exact nothing down
      | cons p cs =>
        rw [goes _ _ down]
        exact rest_config hi.kept hc hfin flag up ok same
    | pending flag up down => exact nothing down
    | asked2 t flag up down => exact nothing down
    | half t flag up down m => exact nothing down
    | asked1 t flag up down => exact nothing down
    | took1 t flag up down m =>
      rw [goes _ _ down]
      refine inv_on hc ?_ (Or.inr ⟨f3.trans hfin, .half t f2 (by show y.up = _; rw [up]; exact congrArg (fun x => [(true, x)]) (congrFun f1 true).symm) rfl ?_⟩)
      · intro b hb v hv
        have := hi.kept b hb v hv
        refine ⟨(congrFun f1 b).trans this.1, Or.inr (Or.inr ⟨f2, ?_⟩)⟩
        show y.up ≠ []
        rw [up]; exact List.cons_ne_nil _ _
      · show y.srv false = some ((answer y.dev).sched false)
        rw [f1]; exact m
    | took2 t flag up down m a =>
      rw [goes _ _ down]
      refine inv_on hc ?_ (Or.inr ⟨f3.trans hfin, .late t f2 up rfl ?_ ?_⟩)
      · intro b hb v hv
        have := hi.kept b hb v hv
        refine ⟨(congrFun f1 b).trans this.1, Or.inr (Or.inl ?_)⟩
        show y.srv b = some v
        rw [← this.1]
        cases b with
        | false => exact m
        | true => exact a
      · show y.srv false = some ((answer y.dev).sched false)
        rw [f1]; exact m
      · show y.srv true = some ((answer y.dev).sched true)
        rw [f1]; exact a
    | late t flag up down m a =>
      rw [goes _ _ down]
      refine inv_on hc ?_ (Or.inr ⟨f3.trans hfin, .rest [] f2 up rfl (fun p hp => by cases hp) ?_⟩)
      · intro b hb v hv
        have := hi.kept b hb v hv
        refine ⟨(congrFun f1 b).trans this.1, Or.inr (Or.inl ?_)⟩
        show y.srv b = some v
        rw [← this.1]
        cases b with
        | false => exact m
        | true => exact a
      · intro b hb
        show y.srv b = some ((answer y.dev).sched b)
        rw [f1]
        cases b with
        | false => exact m
        | true => exact a
    | took t flag up down m =>
      rw [goes _ _ down]
      have hb0 : ∀ b, used e b = true → b = false := by
        intro b hb
        cases b with
        | false => rfl
        | true => rw [used_alt hb rfl] at t; cases t
      refine inv_on hc ?_ (Or.inr ⟨f3.trans hfin, .rest [] f2 up rfl (fun p hp => by cases hp) ?_⟩)
      · intro b hb v hv
        have := hi.kept b hb v hv
        refine ⟨(congrFun f1 b).trans this.1, Or.inr (Or.inl ?_)⟩
        show y.srv b = some v
        rw [← this.1, hb0 b hb]; exact m
      · intro b hb
        show y.srv b = some ((answer y.dev).sched b)
        rw [f1, hb0 b hb]; exact m

theorem turn_pass {e : Env α} {last : Bool → Option α} {y : Sys α} {okM okA : Bool} (hi : Inv e last y)
    (hf : okM = true → okA = true) : Inv e last (turn e y (.pass okM okA)) := by
  rcases Classical.em (y.conn = true) with hc | hc
  rotate_left
  · have : turn e y (.pass okM okA) = y := if_neg hc
    rw [this]; exact hi
  have hturn : turn e y (.pass okM okA) = { y with dev := (pass e okM okA y.dev).1, up := y.up ++ (pass e okM okA y.dev).2 } :=
    if_pos hc
  by_cases hp : y.dev.fin = true ∧ y.dev.flag = 1 ∧ okM = true
  · have hpass : pass e okM okA y.dev = ({ y.dev with flag := 2 }, (false, y.dev.sched false) :: if e.thermo && okA then [(true, y.dev.sched true)] else []) :=
      if_pos hp
    rw [hturn, hpass]
    have hkept : ∀ u : List (Bool × α), ∀ b, used e b = true → ∀ v, last b = some v →
        Kept { y with dev := { y.dev with flag := 2 }, up := u } b v := by
      intro u b hb v hv
      have := hi.kept b hb v hv
      refine ⟨this.1, ?_⟩
      rcases this.2 with q | q | q
      · exact Or.inl ⟨(by decide : (2 : Nat) ≠ 0), q.2⟩
      · exact Or.inr (Or.inl q)
      · exact absurd q.1 (by rw [hp.2.1]; decide)
    have key : y.up = [] ∧ y.down = [] := by
      rcases hi.link hc with hs | ⟨hfin, ht⟩
      · have := hs.fin; rw [hp.1] at this; cases this
      · cases ht with
        | pending flag up down => exact ⟨up, down⟩
        | rest cs flag up down ok same => rw [hp.2.1] at flag; cases flag
        | asked2 t flag up down => rw [hp.2.1] at flag; cases flag
        | took1 t flag up down m => rw [hp.2.1] at flag; cases flag
        | took2 t flag up down m a => rw [hp.2.1] at flag; cases flag
        | half t flag up down m => rw [hp.2.1] at flag; cases flag
        | late t flag up down m a' => rw [hp.2.1] at flag; cases flag
        | asked1 t flag up down => rw [hp.2.1] at flag; cases flag
        | took t flag up down m => rw [hp.2.1] at flag; cases flag
    refine inv_on hc (hkept _) (Or.inr ⟨hp.1, ?_⟩)
    cases ht : e.thermo with
    | true =>
      refine .asked2 ht rfl ?_ key.2
      dsimp only
      rw [key.1, hf hp.2.2]; rfl
    | false =>
      refine .asked1 ht rfl ?_ key.2
      dsimp only
      rw [key.1]; rfl
  · have hpass : pass e okM okA y.dev = (y.dev, []) := if_neg hp
    have : turn e y (.pass okM okA) = y := by
      rw [hturn, hpass, List.append_nil]
    rw [this]; exact hi

theorem turn_inv {e : Env α} {last : Bool → Option α} {y : Sys α} {ev : Ev α} (hi : Inv e last y)
    (hf : Fair e y ev) : Inv e (fun b => said e b (last b) ev) (turn e y ev) := by
  cases ev with
  | change a v => exact turn_change hi hf
  | edit a v => exact turn_edit hi hf
  | connect =>
    refine inv_on rfl ?_ (Or.inl ⟨rfl, rfl, ?_, greeting_shape e y.srv, fun b hb => Or.inr (Or.inl rfl)⟩)
    · intro b hb v hv
      have := kept_drop (hi.kept b hb v hv) hf
      refine ⟨this.1, ?_⟩
      rcases this.2 with q | q
      · refine Or.inl ⟨?_, q.2⟩
        show (if y.dev.flag ≠ 0 then 1 else 0) ≠ 0
        rw [if_pos q.1]; exact Nat.one_ne_zero
      · exact Or.inr (Or.inl q)
    · show (if y.dev.flag ≠ 0 then 1 else 0) ≤ 1
      split <;> omega
  | drop =>
    refine inv_off rfl rfl rfl ?_
    intro b hb v hv
    have := kept_drop (hi.kept b hb v hv) hf
    exact ⟨this.1, this.2.elim Or.inl (fun q => Or.inr (Or.inl q))⟩
  | restart =>
    refine inv_off rfl rfl rfl ?_
    intro b hb v hv
    have := kept_drop (hi.kept b hb v hv) hf
    refine ⟨this.1, ?_⟩
    rcases this.2 with q | q
    · refine Or.inl ⟨?_, q.2⟩
      show (if y.dev.saved then 1 else 0) ≠ 0
      rw [if_pos q.2]; exact Nat.one_ne_zero
    · exact Or.inr (Or.inl q)
  | take ok => exact turn_take hi hf
  | deliver => exact turn_deliver hi
  | pass okM okA => exact turn_pass hi hf

theorem play_inv {e : Env α} (es : List (Ev α)) : ∀ (last : Bool → Option α) (y : Sys α), Inv e last y → AllFair e es y →
    Inv e (fun b => es.foldl (said e b) (last b)) (play e es y) := by
  induction es with
  | nil => exact fun _ _ h _ => h
  | cons ev es ih => exact fun last y h hf => ih _ _ (turn_inv h hf.1) hf.2

/-- In a fair history both sides agree when nothing is under way, and the last word spoken on the device
is kept, across broken connections and restarts. -/
theorem agree_partial (e : Env α) (s : Bool → α) (srv : Bool → Option α) (es : List (Ev α))
    (hf : AllFair e es (start s srv)) : AgreeAfter e s srv es := by
  intro hq a ha
  have hi : Inv e (fun b => lastWord e b es) (play e es (start s srv)) :=
    play_inv es (fun _ => none) _ (inv_off rfl rfl rfl (fun b _ v hv => by cases hv)) hf
  generalize play e es (start s srv) = y at hi hq ⊢
  refine ⟨?_, fun v hv => (hi.kept a ha v hv).1⟩
  rcases hi.link hq.conn with hs | ⟨hfin, ht⟩
  · have := hs.fin; rw [hq.fin] at this; cases this
  · cases ht with
    | rest cs flag up down ok same =>
      have hcs : cs = [] := by
        cases cs with
        | nil => rfl
        | cons p cs => rw [hq.down] at down; cases down
      subst hcs
      exact same a ha
    | pending flag up down => rw [hq.flag] at flag; cases flag
    | asked2 t flag up down => rw [hq.flag] at flag; cases flag
    | took1 t flag up down m => rw [hq.flag] at flag; cases flag
    | took2 t flag up down m a => rw [hq.flag] at flag; cases flag
    | half t flag up down m => rw [hq.up] at up; cases up
    | late t flag up down m a' => rw [hq.down] at down; cases down
    | asked1 t flag up down => rw [hq.flag] at flag; cases flag
    | took t flag up down m => rw [hq.flag] at flag; cases flag

/-- What waits on the device gets to the server. -/
theorem waiting_sent (e : Env α) (y : Sys α) (hc : y.conn = true) (hfin : y.dev.fin = true) (hflag : y.dev.flag = 1)
    (hu : y.up = []) (hd : y.down = []) :
    Quiet (play e [.pass true true, .take true, .take true, .deliver, .deliver] y) ∧
    ∀ a, used e a = true → (play e [.pass true true, .take true, .take true, .deliver, .deliver] y).srv a = some (y.dev.sched a) := by
  obtain ⟨⟨sched, flag, saved, fin, got⟩, srv, up, down, conn⟩ := y
  dsimp only at hc hfin hflag hu hd
  subst hc hfin hflag hu hd
  obtain ⟨t, valid⟩ := e
  cases t with
  | true =>
    refine ⟨⟨rfl, rfl, rfl, rfl, rfl⟩, ?_⟩
    intro a _
    cases a <;> rfl
  | false =>
    refine ⟨⟨rfl, rfl, rfl, rfl, rfl⟩, ?_⟩
    intro a ha
    cases a with
    | false => rfl
    | true => cases ha

/-! ## Histories in which it goes wrong -/

/-- Function HVAC_THERMOSTAT, every schedule valid. -/
def exEnv : Env Nat := ⟨true, fun _ _ => true⟩

/-- Connecting. -/
def hello : List (Ev Nat) := [.connect, .deliver, .deliver, .deliver]

/-- A fair history with changes on both sides, a broken connection and a restart. -/
def exHist : List (Ev Nat) :=
  hello ++ [.pass true true, .take true, .take true, .deliver, .deliver, .edit true 5, .deliver, .change false 7, .change true 8, .pass true true, .take true, .drop, .edit true 3, .restart] ++ hello ++
    [.pass true true, .take true, .take true, .deliver, .deliver, .edit true 9, .deliver]

example : AllFair exEnv exHist (start (fun _ => 0) (fun _ => none)) := by
  simp [AllFair, Fair, exHist, hello, exEnv, start, turn, greeting, registered, handle, receive, finish, change, pass, answer, restart, upd, used, store]

example : Quiet (play exEnv exHist (start (fun _ => 0) (fun _ => none))) ∧ lastWord exEnv false exHist = some 7 ∧
    (play exEnv exHist (start (fun _ => 0) (fun _ => none))).srv true = some 9 := ⟨⟨rfl, rfl, rfl, rfl, rfl⟩, rfl, rfl⟩

/-- The alternative schedule does not get out (line 218), the answer for the main one clears the flag:
the change stays on the device alone. -/
theorem alt_not_sent_violation : ¬ Agree exEnv := by
  intro h
  have := (h (fun _ => 0) (fun _ => some 0) (hello ++ [.change true 7, .pass true false, .take true, .deliver])
    ⟨rfl, rfl, rfl, rfl, rfl⟩ true rfl).1
  exact absurd this (by decide)

/-- The server refuses: the flag is cleared as well (lines 2590-2605). -/
theorem refused_violation : ¬ Agree exEnv := by
  intro h
  have := (h (fun _ => 0) (fun _ => some 0) (hello ++ [.change false 7, .pass true true, .take false, .take false, .deliver, .deliver])
    ⟨rfl, rfl, rfl, rfl, rfl⟩ false rfl).1
  exact absurd this (by decide)

/-- A change after the answer for the main schedule and before the one for the alternative schedule, which
clears the flag. -/
theorem second_answer_violation : ¬ Agree exEnv := by
  intro h
  have := (h (fun _ => 0) (fun _ => some 0) (hello ++ [.change false 7, .pass true true, .take true, .take true, .deliver, .change true 9, .deliver])
    ⟨rfl, rfl, rfl, rfl, rfl⟩ true rfl).1
  exact absurd this (by decide)

/-- The connection breaks between the two messages, after the first answer: at the next connection the
old alternative schedule of the server replaces the one set on the device. -/
theorem broken_violation : ¬ Agree exEnv := by
  intro h
  have := (h (fun _ => 0) (fun _ => some 0) (hello ++ [.change true 7, .pass true true, .take true, .deliver, .drop] ++ hello)
    ⟨rfl, rfl, rfl, rfl, rfl⟩ true rfl).2 7 rfl
  exact absurd this (by decide)

end Verif.Hvac.Sync
