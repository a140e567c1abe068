import Verif.ChanCfg.Props

/-!
# The device and the server agree

The element of `Model.lean` connected to a server over a connection that keeps the order of the messages. The
server is not part of the repository; the one modelled here accepts every configuration and sends its own, then
"finished", after a registration. The OCR configuration is left out.
-/

namespace Verif.ChanCfg

set_option linter.unusedSectionVars false

variable {α μ : Type} [DecidableEq α]

/-- The device, the copy of the server, and the messages under way in both directions. -/
structure Sys (α μ : Type) where
  dev : S α
  srv : Option μ := none
  up : List μ := []
  down : List (In μ) := []
  conn : Bool := false
deriving DecidableEq, Repr

/-- What happens. -/
inductive Ev (α μ : Type) where
  /-- a setting is changed on the device -/
  | change (v : α)
  /-- the configuration is changed on the server -/
  | edit (m : μ)
  | connect
  | drop
  /-- the server takes the next message -/
  | take
  /-- the device takes the next message -/
  | deliver
  | pass (busy : Bool)
  | restart
deriving DecidableEq, Repr

/-- The configurations among the messages of the device. -/
def sent : List (Out μ) → List μ
  | [] => []
  | .config m :: l => m :: sent l
  | .ocr :: l => sent l

/-- One step of both. -/
def turn (E : Elem α μ) (y : Sys α μ) : Ev α μ → Sys α μ
  | .change v => { y with dev := (step E y.dev (.change v)).1 }
  | .edit m => { y with srv := some m, down := if y.conn then y.down ++ [.config true (some m)] else y.down }
  | .connect => { y with dev := (step E y.dev .registered).1, up := [], down := [.config true y.srv, .finished], conn := true }
  | .drop => { y with up := [], down := [], conn := false }
  | .take =>
    match y.up with
    | [] => y
    | m :: up => { y with srv := some m, up := up, down := y.down ++ [.result false true] }
  | .deliver =>
    match y.down with
    | [] => y
    | i :: down => { y with dev := (step E y.dev (.message i)).1, down := down }
  | .pass busy =>
    if y.conn then { y with dev := (step E y.dev (.pass busy true)).1, up := y.up ++ sent (step E y.dev (.pass busy true)).2 }
    else y
  | .restart => { y with dev := (step E y.dev .restart).1, up := [], down := [], conn := false }

/-- A history. -/
def play (E : Elem α μ) : List (Ev α μ) → Sys α μ → Sys α μ
  | [], y => y
  | e :: es, y => play E es (turn E y e)

/-! ## Specification -/

/-- Nothing is under way: connected, the handshake is over, no message in either direction, nothing waiting on
the device. -/
structure Quiet (y : Sys α μ) : Prop where
  conn : y.conn = true
  fin : y.dev.fin = true
  up : y.up = []
  down : y.down = []
  st : y.dev.st = .none

/-- When nothing is under way the server has the configuration of the device. -/
def Converges (E : Elem α μ) (wf : μ → Prop) : Prop := ∀ v srv es, (∀ m, srv = some m → wf m) →
  (∀ m, .edit m ∈ es → wf m) →
  Quiet (play E es { dev := { val := v }, srv := srv }) →
  (play E es { dev := { val := v }, srv := srv }).srv = E.fill (play E es { dev := { val := v }, srv := srv }).dev.val

/-- A class is faithful when it always has a configuration, and one it has taken without asking for more is the
one it would send. -/
structure Faithful (E : Elem α μ) (wf : μ → Prop) : Prop where
  full : ∀ a, ∃ m, E.fill a = some m ∧ wf m
  taken : ∀ m a, wf m → (E.apply m a).2 = .keep ∨ (E.apply m a).2 = .clear ∨ (E.apply m a).2 = .reload → E.fill (E.apply m a).1 = some m
  ocr : E.ocr = false

/-- No crossing: while connected, nothing is changed on the device between a configuration it has sent and the
answer, nor while one of the server is under way; on the server only when the device is at rest and has taken
the previous one. -/
def NoCrossing (y : Sys α μ) : Ev α μ → Prop
  | .change _ => y.conn = true → y.dev.st ≠ .send ∧ (y.dev.fin = true → ∀ e c, .config e c ∉ y.down)
  | .edit _ => y.conn = true → y.dev.fin = true ∧ y.dev.st = .none ∧ ∀ e c, .config e c ∉ y.down
  | _ => True

/-- All along a history. -/
def AllNoCrossing (E : Elem α μ) : List (Ev α μ) → Sys α μ → Prop
  | [], _ => True
  | e :: es, y => NoCrossing y e ∧ AllNoCrossing E es (turn E y e)

/-! ## The invariant -/

/-- Before the end of the handshake. -/
inductive Shake (E : Elem α μ) (y : Sys α μ) : Prop where
  | both (h : y.down = [.config true y.srv, .finished]) (st : y.dev.st = .wait ∨ y.dev.st = .pending)
  | last (h : y.down = [.finished]) (st : y.dev.st = .pending ∨ ((y.dev.st = .wait ∨ y.dev.st = .none) ∧ y.srv = E.fill y.dev.val))

/-- After it. -/
inductive Talk (E : Elem α μ) (y : Sys α μ) : Prop where
  | rest (st : y.dev.st = .none) (up : y.up = []) (down : y.down = []) (ag : y.srv = E.fill y.dev.val)
  | edited (m : μ) (st : y.dev.st = .none) (up : y.up = []) (down : y.down = [.config true (some m)]) (srv : y.srv = some m)
  | pending (st : y.dev.st = .pending) (up : y.up = []) (down : y.down = [])
  | asked (m : μ) (st : y.dev.st = .send) (up : y.up = [m]) (down : y.down = []) (ag : E.fill y.dev.val = some m)
  | answered (st : y.dev.st = .send) (up : y.up = []) (down : y.down = [.result false true]) (ag : y.srv = E.fill y.dev.val)

/-- The states in which the device can be. -/
def Sane (s : S α) : Prop := s.st ≠ .failed ∧ s.st ≠ .ocrPending ∧ s.st ≠ .ocrSend ∧ s.ocrMissing = false

theorem sane_of {s : S α} (h : s.st = .none ∨ s.st = .pending ∨ s.st = .send ∨ s.st = .wait) (ho : s.ocrMissing = false) : Sane s := by
  rcases h with h | h | h | h
  all_goals exact ⟨by rw [h]; decide, by rw [h]; decide, by rw [h]; decide, ho⟩

/-- The invariant of both sides and the messages between them. -/
structure Inv (E : Elem α μ) (wf : μ → Prop) (y : Sys α μ) : Prop where
  wf : ∀ m, y.srv = some m → wf m
  sane : Sane y.dev
  off : y.conn = false → y.up = [] ∧ y.down = []
  shake : y.conn = true → y.dev.fin = false → y.up = [] ∧ Shake E y
  talk : y.conn = true → y.dev.fin = true → Talk E y

theorem change_fields (v : α) (s : S α) :
    (change v s).fin = s.fin ∧ (change v s).ocrMissing = s.ocrMissing ∧
    ((change v s).val = s.val ∧ (change v s).st = s.st ∨ (change v s).st = .pending) := by
  unfold change
  split
  · exact ⟨rfl, rfl, .inl ⟨rfl, rfl⟩⟩
  · exact ⟨rfl, rfl, .inr rfl⟩

/-- Taking a configuration when nothing is waiting. -/
theorem take_config {E : Elem α μ} {wf : μ → Prop} (hE : Faithful E wf) (s : S α) (c : Option μ)
    (hc : ∀ m, c = some m → wf m) (hs : Sane s) (h1 : s.st = .none ∨ s.st = .wait) :
    (config E true c s).fin = s.fin ∧ Sane (config E true c s) ∧
    ((config E true c s).st = .pending ∨
      ((config E true c s).st = s.st ∨ (config E true c s).st = .none) ∧ c = E.fill (config E true c s).val) := by
  have hnf : s.st ≠ .failed := hs.1
  have hnp : s.st ≠ .pending := by
    rcases h1 with h | h <;> rw [h] <;> exact fun a => nomatch a
  unfold config
  rw [if_neg (by simp), if_neg hnp]
  cases c with
  | none =>
    dsimp only
    unfold trigger
    rw [if_neg hnf]
    exact ⟨rfl, sane_of (.inr (.inl rfl)) hs.2.2.2, .inl rfl⟩
  | some m =>
    dsimp only
    have hl := hE.taken m s.val (hc m rfl)
    generalize E.apply m s.val = r at hl
    obtain ⟨v, a⟩ := r
    dsimp only at hl ⊢
    cases a
    · exact ⟨rfl, hs, .inr ⟨.inl rfl, (hl (.inl rfl)).symm⟩⟩
    · exact ⟨rfl, sane_of (.inr (.inl rfl)) hs.2.2.2, .inl rfl⟩
    · exact ⟨rfl, sane_of (.inl rfl) hs.2.2.2, .inr ⟨.inr rfl, (hl (.inr (.inl rfl))).symm⟩⟩
    · unfold after trigger
      dsimp only
      rw [if_neg hnf]
      exact ⟨rfl, sane_of (.inr (.inl rfl)) hs.2.2.2, .inl rfl⟩
    · unfold after
      dsimp only
      cases s.flag
      · exact ⟨rfl, sane_of (.inl rfl) hs.2.2.2, .inr ⟨.inr rfl, (hl (.inr (.inr rfl))).symm⟩⟩
      · exact ⟨rfl, sane_of (.inr (.inl rfl)) hs.2.2.2, .inl rfl⟩

theorem pass_rest (E : Elem α μ) (b : Bool) (s : S α) (h : s.st = .none ∨ s.st = .wait ∨ s.st = .send) (ho : s.ocrMissing = false) :
    pass E b true s = (s, []) := by
  have ha : askOcr s = s := by
    unfold askOcr
    rw [if_neg (by simp [ho])]
  unfold pass
  split
  · rfl
  · rcases h with h | h | h <;> rw [h] <;> dsimp only <;> rw [ha]

theorem turn_inv {E : Elem α μ} {wf : μ → Prop} (hE : Faithful E wf) {y : Sys α μ} {e : Ev α μ} (hi : Inv E wf y)
    (hw : ∀ m, e = .edit m → wf m) (hc : NoCrossing y e) : Inv E wf (turn E y e) := by
  obtain ⟨hwf, hsane, hoff, hshake, htalk⟩ := hi
  cases e with
  | change v =>
    obtain ⟨f1, f2, f3⟩ := change_fields v y.dev
    have hcs : y.conn = true → y.dev.st ≠ .send ∧ (y.dev.fin = true → ∀ e c, .config e c ∉ y.down) := hc
    refine ⟨hwf, ?_, hoff, fun h1 h2 => ?_, fun h1 h2 => ?_⟩
    · show Sane (change v y.dev)
      rcases f3 with ⟨_, f3⟩ | f3
      · exact ⟨by rw [f3]; exact hsane.1, by rw [f3]; exact hsane.2.1, by rw [f3]; exact hsane.2.2.1, by rw [f2]; exact hsane.2.2.2⟩
      · exact sane_of (.inr (.inl f3)) (f2.trans hsane.2.2.2)
    · have h2 : (change v y.dev).fin = false := h2
      obtain ⟨hu, hs⟩ := hshake h1 (f1 ▸ h2)
      refine ⟨hu, ?_⟩
      rcases f3 with ⟨fv, fs⟩ | fs
      · cases hs with
        | both h st => exact .both h (show (change v y.dev).st = _ ∨ (change v y.dev).st = _ by rw [fs]; exact st)
        | last h st =>
          exact .last h (show (change v y.dev).st = _ ∨ (((change v y.dev).st = _ ∨ (change v y.dev).st = _) ∧ y.srv = E.fill (change v y.dev).val) by rw [fs, fv]; exact st)
      · cases hs with
        | both h st => exact .both h (.inr fs)
        | last h st => exact .last h (.inl fs)
    · have h2 : (change v y.dev).fin = true := h2
      have h2' : y.dev.fin = true := f1 ▸ h2
      obtain ⟨hns, hnc⟩ := hcs h1
      rcases f3 with ⟨fv, fs⟩ | fs
      · cases htalk h1 h2' with
        | rest st up down ag => exact .rest (fs.trans st) up down (show y.srv = E.fill (change v y.dev).val by rw [fv]; exact ag)
        | edited m st up down srv => exact .edited m (fs.trans st) up down srv
        | pending st up down => exact .pending (fs.trans st) up down
        | asked m st up down ag => exact absurd st hns
        | answered st up down ag => exact absurd st hns
      · cases htalk h1 h2' with
        | rest st up down ag => exact .pending fs up down
        | edited m st up down srv => exact absurd (by rw [down]; exact List.mem_cons_self) (hnc h2' true (some m))
        | pending st up down => exact .pending fs up down
        | asked m st up down ag => exact absurd st hns
        | answered st up down ag => exact absurd st hns
  | edit m =>
    have hcs : y.conn = true → y.dev.fin = true ∧ y.dev.st = .none ∧ ∀ e c, .config e c ∉ y.down := hc
    refine ⟨fun m' h => ?_, hsane, fun h1 => ?_, fun h1 h2 => ?_, fun h1 h2 => ?_⟩
    · injection (show some m = some m' from h) with h
      exact h ▸ hw m rfl
    · have h1 : y.conn = false := h1
      refine ⟨(hoff h1).1, ?_⟩
      show (if y.conn = true then _ else y.down) = []
      rw [if_neg (by simp [h1])]
      exact (hoff h1).2
    · have h1 : y.conn = true := h1
      have h2 : y.dev.fin = false := h2
      rw [(hcs h1).1] at h2
      cases h2
    · have h1 : y.conn = true := h1
      obtain ⟨_, hst, hnc⟩ := hcs h1
      cases htalk h1 h2 with
      | rest st up down ag =>
        refine .edited m st up ?_ rfl
        show (if y.conn = true then _ else y.down) = _
        rw [if_pos h1, down]
        rfl
      | edited m' st up down srv => exact absurd (by rw [down]; exact List.mem_cons_self) (hnc true (some m'))
      | pending st up down => rw [st] at hst; cases hst
      | asked m st up down ag => rw [st] at hst; cases hst
      | answered st up down ag => rw [st] at hst; cases hst
  | connect =>
    have hst : (registered E y.dev).st = .wait ∨ (registered E y.dev).st = .pending := by
      unfold registered
      dsimp only
      split
      all_goals first | exact .inl rfl | exact .inr rfl
    refine ⟨hwf, ?_, fun h => Bool.noConfusion h, fun _ _ => ⟨rfl, .both rfl hst⟩, fun _ h => Bool.noConfusion h⟩
    show Sane (registered E y.dev)
    rcases hst with h | h
    · exact sane_of (.inr (.inr (.inr h))) hE.ocr
    · exact sane_of (.inr (.inl h)) hE.ocr
  | drop => exact ⟨hwf, hsane, fun _ => ⟨rfl, rfl⟩, fun h => Bool.noConfusion h, fun h => Bool.noConfusion h⟩
  | restart =>
    refine ⟨hwf, ?_, fun _ => ⟨rfl, rfl⟩, fun h => Bool.noConfusion h, fun h => Bool.noConfusion h⟩
    have : (step E y.dev .restart).1.st = .pending ∨ (step E y.dev .restart).1.st = .none := by
      show (if y.dev.flag then St.pending else St.none) = _ ∨ (if y.dev.flag then St.pending else St.none) = _
      cases y.dev.flag
      · exact .inr rfl
      · exact .inl rfl
    show Sane (step E y.dev .restart).1
    rcases this with h | h
    · exact sane_of (.inr (.inl h)) hE.ocr
    · exact sane_of (.inl h) hE.ocr
  | take =>
    simp only [turn]
    cases hu : y.up with
    | nil =>
      dsimp only
      exact ⟨hwf, hsane, hoff, hshake, htalk⟩
    | cons m up =>
      dsimp only
      have hconn : y.conn = true := by
        cases hcn : y.conn with
        | true => rfl
        | false => have := (hoff hcn).1; rw [hu] at this; cases this
      have hfin : y.dev.fin = true := by
        cases hf : y.dev.fin with
        | true => rfl
        | false => have := (hshake hconn hf).1; rw [hu] at this; cases this
      have key : ∃ m', y.dev.st = .send ∧ y.up = [m'] ∧ y.down = [] ∧ E.fill y.dev.val = some m' := by
        cases htalk hconn hfin with
        | asked m' st up down ag => exact ⟨m', st, up, down, ag⟩
        | rest st up down ag => rw [hu] at up; cases up
        | edited m' st up down srv => rw [hu] at up; cases up
        | pending st up down => rw [hu] at up; cases up
        | answered st up down ag => rw [hu] at up; cases up
      obtain ⟨m', k1, k2, k3, k4⟩ := key
      rw [hu] at k2
      injection k2 with k2 k5
      subst k2 k5
      obtain ⟨m1, w1, w2⟩ := hE.full y.dev.val
      refine ⟨fun m2 h => ?_, hsane, fun h => ?_, fun _ h => ?_, fun _ _ => ?_⟩
      · injection (show some m = some m2 from h) with h
        rw [k4] at w1
        injection w1 with w1
        rw [← h, w1]
        exact w2
      · have h : y.conn = false := h
        rw [hconn] at h
        cases h
      · have h : y.dev.fin = false := h
        rw [hfin] at h
        cases h
      · refine .answered k1 rfl ?_ k4.symm
        show y.down ++ _ = _
        rw [k3]
        rfl
  | deliver =>
    simp only [turn]
    cases hd : y.down with
    | nil =>
      dsimp only
      exact ⟨hwf, hsane, hoff, hshake, htalk⟩
    | cons i down =>
      dsimp only
      have hconn : y.conn = true := by
        cases hcn : y.conn with
        | true => rfl
        | false => have := (hoff hcn).2; rw [hd] at this; cases this
      cases hf : y.dev.fin with
      | false =>
        obtain ⟨hu, hs⟩ := hshake hconn hf
        cases hs with
        | both h st =>
          rw [hd] at h
          injection h with h h'
          subst h h'
          simp only [step]
          rcases st with st | st
          · obtain ⟨t1, t2, t3⟩ := take_config hE y.dev y.srv hwf hsane (.inr st)
            refine ⟨hwf, t2, fun h => absurd (show y.conn = false from h) (by simp [hconn]), fun _ _ => ⟨hu, .last rfl ?_⟩, fun _ h => ?_⟩
            · rcases t3 with t3 | ⟨t3, t4⟩
              · exact .inl t3
              · rcases t3 with t3 | t3
                · exact .inr ⟨.inl (t3.trans st), t4⟩
                · exact .inr ⟨.inr t3, t4⟩
            · have h : (config E true y.srv y.dev).fin = true := h
              rw [t1, hf] at h
              cases h
          · have hce : config E true y.srv y.dev = y.dev := by
              unfold config
              rw [if_neg (by simp), if_pos st]
            rw [hce]
            exact ⟨hwf, hsane, fun h => absurd (show y.conn = false from h) (by simp [hconn]), fun _ _ => ⟨hu, .last rfl (.inl st)⟩,
              fun _ h => absurd (show y.dev.fin = true from h) (by simp [hf])⟩
        | last h st =>
          rw [hd] at h
          injection h with h h'
          subst h h'
          simp only [step]
          refine ⟨hwf, ?_, fun h => absurd (show y.conn = false from h) (by simp [hconn]), fun _ h => Bool.noConfusion h, fun _ _ => ?_⟩
          · show Sane (finished y.dev)
            have : (finished y.dev).st = y.dev.st ∨ (finished y.dev).st = .none := by
              unfold finished
              dsimp only
              split
              · exact .inr rfl
              · exact .inl rfl
            rcases this with h | h
            · exact ⟨by rw [h]; exact hsane.1, by rw [h]; exact hsane.2.1, by rw [h]; exact hsane.2.2.1, hsane.2.2.2⟩
            · exact sane_of (.inl h) hsane.2.2.2
          · rcases st with st | ⟨st, ag⟩
            · refine .pending ?_ hu rfl
              show (if y.dev.st = .wait then St.none else y.dev.st) = _
              rw [st]; rfl
            · refine .rest ?_ hu rfl ag
              show (if y.dev.st = .wait then St.none else y.dev.st) = _
              rcases st with st | st <;> rw [st] <;> rfl
      | true =>
        cases htalk hconn hf with
        | rest st up down ag => rw [hd] at down; cases down
        | pending st up down => rw [hd] at down; cases down
        | asked m st up down ag => rw [hd] at down; cases down
        | edited m st up dn srv =>
          rw [hd] at dn
          injection dn with h h'
          subst h h'
          simp only [step]
          obtain ⟨t1, t2, t3⟩ := take_config hE y.dev (some m) (fun m' h => hwf m' (srv.trans h)) hsane (.inl st)
          refine ⟨hwf, t2, fun h => absurd (show y.conn = false from h) (by simp [hconn]), fun _ h => ?_, fun _ _ => ?_⟩
          · have h : (config E true (some m) y.dev).fin = false := h
            rw [t1, hf] at h
            cases h
          · rcases t3 with t3 | ⟨t3, t4⟩
            · exact .pending t3 up rfl
            · refine .rest ?_ up rfl (srv.trans t4)
              rcases t3 with t3 | t3
              · exact t3.trans st
              · exact t3
        | answered st up dn ag =>
          rw [hd] at dn
          injection dn with h h'
          subst h h'
          have hr : (result false true y.dev).st = .none ∧ (result false true y.dev).val = y.dev.val ∧
              (result false true y.dev).fin = y.dev.fin ∧ (result false true y.dev).ocrMissing = y.dev.ocrMissing := by
            unfold result clearChanged
            simp only [Bool.false_eq_true, if_false, if_true]
            rw [if_neg (by rw [st]; intro h; rcases h with h | h <;> cases h)]
            exact ⟨rfl, rfl, rfl, rfl⟩
          obtain ⟨r1, r2, r3, r4⟩ := hr
          simp only [step]
          refine ⟨hwf, sane_of (.inl r1) (r4.trans hsane.2.2.2),
            fun h => absurd (show y.conn = false from h) (by simp [hconn]), fun _ h => ?_, fun _ _ => .rest r1 up rfl ?_⟩
          · have h : (result false true y.dev).fin = false := h
            rw [r3, hf] at h
            cases h
          · show y.srv = E.fill (result false true y.dev).val
            rw [r2]
            exact ag
  | pass b =>
    simp only [turn]
    by_cases hconn : y.conn = true
    · rw [if_pos hconn]
      simp only [step]
      by_cases hp : y.dev.st = .pending
      · by_cases hb : b = true ∨ y.dev.fin = false
        · have hpe : pass E b true y.dev = (y.dev, []) := by
            unfold pass
            rw [if_pos hb]
          rw [hpe]
          simp only [sent, List.append_nil]
          exact ⟨hwf, hsane, hoff, hshake, htalk⟩
        · obtain ⟨m, hm, hmw⟩ := hE.full y.dev.val
          have hpe : pass E b true y.dev = ({ y.dev with st := .send, unsent := false }, [.config m]) := by
            unfold pass
            rw [if_neg hb, hp]
            dsimp only
            rw [hm]
            rfl
          rw [hpe]
          have hfin : y.dev.fin = true := by
            cases hf : y.dev.fin with
            | true => rfl
            | false => exact absurd (.inr hf) hb
          refine ⟨hwf, ⟨fun a => (nomatch a), fun a => (nomatch a), fun a => (nomatch a), hsane.2.2.2⟩,
            fun h => absurd (show y.conn = false from h) (by simp [hconn]),
            fun _ h => absurd (show y.dev.fin = false from h) (by simp [hfin]), fun _ _ => ?_⟩
          cases htalk hconn hfin with
          | pending st up down =>
            refine .asked m rfl ?_ down hm
            show y.up ++ [m] = [m]
            rw [up]
            rfl
          | rest st up down ag => rw [hp] at st; cases st
          | edited m' st up down srv => rw [hp] at st; cases st
          | asked m' st up down ag => rw [hp] at st; cases st
          | answered st up down ag => rw [hp] at st; cases st
      · have hs : y.dev.st = .none ∨ y.dev.st = .wait ∨ y.dev.st = .send := by
          obtain ⟨a1, a2, a3, _⟩ := hsane
          cases hst : y.dev.st
          · exact .inl rfl
          · exact absurd hst hp
          · exact .inr (.inr rfl)
          · exact absurd hst a1
          · exact .inr (.inl rfl)
          · exact absurd hst a2
          · exact absurd hst a3
        rw [pass_rest E b y.dev hs hsane.2.2.2]
        simp only [sent, List.append_nil]
        exact ⟨hwf, hsane, hoff, hshake, htalk⟩
    · rw [if_neg hconn]
      exact ⟨hwf, hsane, hoff, hshake, htalk⟩

theorem play_inv {E : Elem α μ} {wf : μ → Prop} (hE : Faithful E wf) (es : List (Ev α μ)) (y : Sys α μ) (hi : Inv E wf y)
    (hw : ∀ m, .edit m ∈ es → wf m) (hc : AllNoCrossing E es y) : Inv E wf (play E es y) := by
  induction es generalizing y with
  | nil => exact hi
  | cons e es ih =>
    exact ih _ (turn_inv hE hi (fun m h => hw m (h ▸ List.mem_cons_self)) hc.1)
      (fun m h => hw m (List.mem_cons_of_mem _ h)) hc.2

/-- Without crossing changes the device and the server agree whenever nothing is under way, for every faithful
class and through every number of disconnections and restarts. Missing for `Converges`: see the violations. -/
theorem converges_partial {E : Elem α μ} {wf : μ → Prop} (hE : Faithful E wf) (v : α) (srv : Option μ) (es : List (Ev α μ))
    (hs : ∀ m, srv = some m → wf m) (hw : ∀ m, .edit m ∈ es → wf m)
    (hc : AllNoCrossing E es { dev := { val := v }, srv := srv })
    (hq : Quiet (play E es { dev := { val := v }, srv := srv })) :
    (play E es { dev := { val := v }, srv := srv }).srv = E.fill (play E es { dev := { val := v }, srv := srv }).dev.val := by
  have hi := play_inv hE es { dev := { val := v }, srv := srv }
    ⟨hs, ⟨fun a => (nomatch a), fun a => (nomatch a), fun a => (nomatch a), rfl⟩, fun _ => ⟨rfl, rfl⟩, fun h => Bool.noConfusion h,
     fun h => Bool.noConfusion h⟩ hw hc
  cases hi.talk hq.conn hq.fin with
  | rest st up down ag => exact ag
  | edited m st up down srv => have := hq.down; rw [down] at this; cases this
  | pending st up down => have := hq.st; rw [st] at this; cases this
  | asked m st up down ag => have := hq.up; rw [up] at this; cases this
  | answered st up down ag => have := hq.st; rw [st] at this; cases this

theorem plain_faithful : Faithful plain fun _ => True :=
  ⟨fun a => ⟨a, rfl, trivial⟩, fun _ _ _ _ => rfl, rfl⟩

/-- A history with a change during the handshake, a lost connection, a restart and a change on the server. -/
example : Quiet (play plain [.connect, .change 5, .deliver, .deliver, .pass false, .drop, .restart, .connect, .deliver,
    .deliver, .pass false, .take, .deliver, .edit 7, .deliver] { dev := { val := 1 }, srv := some 3 }) ∧
    (play plain [.connect, .change 5, .deliver, .deliver, .pass false, .drop, .restart, .connect, .deliver,
    .deliver, .pass false, .take, .deliver, .edit 7, .deliver] { dev := { val := 1 }, srv := some 3 }).srv = some 7 := by
  refine ⟨⟨?_, ?_, ?_, ?_, ?_⟩, ?_⟩ <;> decide +kernel

/-- A change on each side at the same time: the device keeps the one of the server and the server the one of the
device, and nothing is under way any more. -/
theorem crossing_violation : ¬ Converges plain (fun _ => True) := by
  intro h
  have := h 1 (some 1) [.connect, .deliver, .deliver, .change 5, .pass false, .edit 7, .take, .deliver, .deliver]
    (fun _ _ => trivial) (fun _ _ => trivial) ⟨by decide +kernel, by decide +kernel, by decide +kernel, by decide +kernel, by decide +kernel⟩
  revert this
  decide +kernel

/-- Two changes on the device, the second before the answer to the first: the server never learns of it. -/
theorem second_change_violation : ¬ Converges plain (fun _ => True) := by
  intro h
  have := h 1 (some 1) [.connect, .deliver, .deliver, .change 5, .pass false, .change 6, .take, .deliver]
    (fun _ _ => trivial) (fun _ h => by simp at h) ⟨by decide +kernel, by decide +kernel, by decide +kernel, by decide +kernel, by decide +kernel⟩
  revert this
  decide +kernel

end Verif.ChanCfg
