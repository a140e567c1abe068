import Verif.Ds.Props

/-! # DS18B20 thermometers: assignment, reset, and the table of devices -/

namespace Verif.Ds

/-! ## A reading reaches its channel -/

/-- A device in the table is found by its address. -/
theorem getIndex_mem {devs : List Rom} {r : Rom} (hr : r ∈ devs) (ha : assigned r.reverse = true) :
    ∃ i, getIndex devs r.reverse = some i ∧ i < devs.length ∧ devs.getD i [] = r := by
  unfold getIndex
  rw [ha, if_pos rfl]
  cases h : devs.findIdx? (fun x => decide (x.reverse = r.reverse)) with
  | none =>
    rw [List.findIdx?_eq_none_iff] at h
    have := h r hr
    simp at this
  | some i =>
    rw [List.findIdx?_eq_some_iff_getElem] at h
    obtain ⟨hi, h1, -⟩ := h
    refine ⟨i, rfl, hi, ?_⟩
    have h1 : devs[i].reverse = r.reverse := of_decide_eq_true h1
    rw [List.getD_eq_getElem?_getD, List.getElem?_eq_getElem hi]
    exact List.reverse_inj.mp h1

theorem getTemp_mem {devs : List Rom} {r : Rom} (T : Rom → Option Int) (hr : r ∈ devs) (ha : assigned r.reverse = true) :
    getTemp devs T r.reverse = T r := by
  obtain ⟨i, h1, -, h2⟩ := getIndex_mem hr ha
  unfold getTemp
  rw [h1]
  dsimp only
  rw [h2]

theorem request_some {p : List Rom} {s t : S} (h : request p s = some t) : t.chans = s.chans ∧ t.flash = s.flash ∧
    t.devs = s.devs ++ (p.filter fun r => !s.devs.contains r) ∧ (s.devs ≠ [] → t.done = fun _ => false) := by
  unfold request at h
  cases hs : scan p s with
  | none => rw [hs] at h; cases h
  | some u =>
    rw [hs] at h
    have hu := scan_some hs
    have h : (if u.devs.isEmpty then u else { u with ready := false, done := fun _ => false }) = t := Option.some.inj h
    rw [← h]
    cases he : u.devs.isEmpty
    · rw [if_neg Bool.false_ne_true]
      exact ⟨by rw [hu], by rw [hu], by rw [hu], fun _ => rfl⟩
    · rw [if_pos rfl]
      refine ⟨by rw [hu], by rw [hu], by rw [hu], fun hn => ?_⟩
      rw [hu] at he
      exact absurd (List.append_eq_nil_iff.mp (List.isEmpty_iff.mp he)).1 hn

theorem assign_id {c : Nat} {s : S} {ch : Ch} (hc : s.chans[c]? = some ch) (ha : assigned ch.addr = true) : assign c s = s := by
  rcases assign_cases c s with h | ⟨ch', r, h1, h2, -⟩
  · exact h
  · rw [hc] at h1
    cases h1
    rw [ha] at h2
    cases h2

/-- From any state: a channel with a probe that was found takes, in the round after a request, what that probe (and
no other) gives, and shows it if it tells a temperature. -/
theorem measured_shown (s t : S) (c : Nat) (ch : Ch) (r : Rom) (p : List Rom) (T : Rom → Option Int)
    (hc : s.chans[c]? = some ch) (hr : r ∈ s.devs) (haddr : ch.addr = r.reverse) (ha : assigned ch.addr = true)
    (h : run [.request p, .converted, .pass c T] s = some t) :
    ∃ ch', t.chans[c]? = some ch' ∧ ch'.addr = ch.addr ∧ ch'.log = (r, T r) :: ch.log ∧ (Tells (T r) = true → ch'.shown = T r) := by
  cases hq : request p s with
  | none =>
    have h : (request p s).bind (fun u => run [.converted, .pass c T] u) = some t := h
    rw [hq] at h
    cases h
  | some u =>
    have h : (request p s).bind (fun u => run [.converted, .pass c T] u) = some t := h
    rw [hq] at h
    have h : some (pass T c { u with ready := true }) = some t := h
    have h := Option.some.inj h
    obtain ⟨h1, -, h2, h3⟩ := request_some hq
    have hne : s.devs ≠ [] := fun h => by rw [h] at hr; cases hr
    have hdone := h3 hne
    have hru : r ∈ u.devs := by rw [h2]; exact List.mem_append_left _ hr
    have hcu : ({ u with ready := true } : S).chans[c]? = some ch := by show u.chans[c]? = _; rw [h1]; exact hc
    have hread : alreadyRead ({ u with ready := true } : S) ch.addr = false := by
      unfold alreadyRead
      show (match getIndex u.devs ch.addr with | none => false | some i => u.done i) = false
      rw [hdone]
      split <;> rfl
    have hp : pass T c { u with ready := true } = value T c { u with ready := true } := by
      have h5 : pass T c { u with ready := true } = value T c (assign c { u with ready := true }) := by
        unfold pass
        rw [hcu]
        dsimp only
        rw [hread]
        exact if_pos rfl
      rw [h5, assign_id hcu ha]
    rw [hp] at h
    have hv := value_chans T c { u with ready := true } ch hcu
    rw [h] at hv
    have hlt : c < u.chans.length := getElem?_lt hcu
    have hget : getTemp u.devs T ch.addr = T r := by rw [haddr]; exact getTemp_mem T hru (by rw [← haddr]; exact ha)
    refine ⟨passed ch.addr (T r) ch, ?_, ?_, ?_, ?_⟩
    · rw [hv]
      show (u.chans.set c (passed ch.addr (getTemp u.devs T ch.addr) ch))[c]? = _
      rw [hget, List.getElem?_set_self hlt]
    · unfold passed
      rw [ha, if_pos rfl, take_addr]
    · have hrr : ch.addr.reverse = r := by rw [haddr, List.reverse_reverse]
      rw [← hrr]
      unfold passed
      rw [ha, if_pos rfl]
      unfold take
      split
      · rfl
      · split <;> rfl
    · intro ht
      unfold passed
      rw [ha, if_pos rfl]
      unfold take
      rw [good_eq, ht, if_pos rfl]

/-! ## Only the own probe -/

/-- Full claim: a channel with a probe shows only temperatures that were read from that probe. -/
def OwnProbe : Prop := ∀ n es s, run es (init n) = some s → ∀ ch ∈ s.chans, assigned ch.addr = true →
  ∀ v, ch.shown = some v → (ch.addr.reverse, some v) ∈ ch.log

/-- All readings are of the present probe. -/
def Own (ch : Ch) : Prop := ∀ e ∈ ch.log, e.1 = ch.addr.reverse ∧ assigned ch.addr = true

theorem passed_own {ch : Ch} {a : Addr} (v : Option Int) (h : Own ch) (ha : a = ch.addr ∨ assigned ch.addr = false) :
    Own (passed a v ch) := by
  have hlog : assigned ch.addr = false → ch.log = [] := fun hf => by
    cases hl : ch.log with
    | nil => rfl
    | cons e l =>
      have := (h e (by rw [hl]; exact List.mem_cons_self)).2
      rw [hf] at this
      cases this
  have key : ∀ e ∈ ch.log, e.1 = a.reverse ∧ assigned a = true := by
    intro e he
    rcases ha with h1 | h1
    · rw [h1]; exact h e he
    · rw [hlog h1] at he; cases he
  unfold passed
  cases hA : assigned a
  · rw [if_neg Bool.false_ne_true]
    intro e he
    have := (key e he).2
    rw [hA] at this
    cases this
  · rw [if_pos rfl]
    have hl : (take v { ch with addr := a }).log = (a.reverse, v) :: ch.log := by
      unfold take
      split
      · rfl
      · split <;> rfl
    intro e he
    rw [hl] at he
    rw [take_addr]
    rcases List.mem_cons.mp he with h1 | h1
    · rw [h1]; exact ⟨rfl, hA⟩
    · exact key e h1

theorem newest_mem {l : List (Option Int)} {v : Int} (h : newest l = some v) : some v ∈ l := by
  induction l with
  | nil => cases h
  | cons x l ih =>
    have h : (if Tells x then x else newest l) = some v := h
    split at h
    · rw [h]; exact List.mem_cons_self
    · exact List.mem_cons_of_mem _ (ih h)

/-- Histories without "Reset assignement". -/
def NoReset (es : List Ev) : Prop := ∀ e ∈ es, ∀ c, e ≠ .reset c

theorem run_own (n : Nat) (es : List Ev) (s : S) (h : run es (init n) = some s) (hn : NoReset es) : AllCh Own s := by
  have hfresh : ∀ a, Own { addr := a } := fun a e he => by cases he
  have hinit : AllCh Own (init n) := by
    intro ch hm
    rw [List.eq_of_mem_replicate hm]
    exact hfresh zeros
  revert hinit h
  generalize init n = s0
  induction es generalizing s0 with
  | nil => exact fun h hi => (Option.some.inj h) ▸ hi
  | cons e es ih =>
    intro h hi
    unfold run at h
    rw [List.foldlM_cons] at h
    cases he : step s0 e with
    | none => rw [he] at h; cases h
    | some u =>
      rw [he] at h
      refine ih (fun e' he' => hn e' (List.mem_cons_of_mem _ he')) u h ?_
      exact step_all hfresh (fun ch a v hc ha => passed_own v hc ha)
        (fun ⟨c, hc⟩ => absurd hc (hn e List.mem_cons_self c)) hi he

/-- As long as no assignment is reset, each channel shows only what its own probe gave. -/
theorem own_probe_partial (n : Nat) (es : List Ev) (s : S) (h : run es (init n) = some s) (hn : NoReset es) (ch : Ch)
    (hm : ch ∈ s.chans) (v : Int) (hv : ch.shown = some v) :
    (ch.addr.reverse, some v) ∈ ch.log := by
  have ho := run_own n es s h hn ch hm
  have hk := run_ok n es s h ch hm
  have hnew : newest (readings ch) = some v := by
    rcases hk.shown with h1 | h1
    · rw [hv] at h1
      split at h1
      · cases h1
      · exact h1.symm
    · rw [hv] at h1; cases h1.2
  obtain ⟨e, he, h2⟩ := List.mem_map.mp (newest_mem hnew)
  have h3 := (ho e he).1
  have : e = (ch.addr.reverse, some v) := Prod.ext h3 h2
  rw [← this]
  exact he

/-- A witness as a fact about all channels of the final state. -/
theorem of_run {α : Type} {es : List Ev} {n : Nat} {f : Ch → α} {x : α}
    (h : (run es (init n)).map (fun s => s.chans.map f) = some [x]) :
    ∃ s ch, run es (init n) = some s ∧ ch ∈ s.chans ∧ s.chans[0]? = some ch ∧ f ch = x := by
  cases hr : run es (init n) with
  | none => rw [hr] at h; cases h
  | some s =>
    rw [hr] at h
    have h : s.chans.map f = [x] := Option.some.inj h
    cases hc : s.chans with
    | nil => rw [hc] at h; cases h
    | cons ch l =>
      rw [hc] at h
      exact ⟨s, ch, rfl, by rw [hc]; exact List.mem_cons_self, by rw [hc]; rfl, (List.cons.inj h).1⟩

/-- The assignment of a channel is reset and the channel gets a new probe whose first reading fails: the channel shows
the temperature of the old one. -/
theorem other_probe_violation : ¬ OwnProbe := by
  intro h
  have hw : (run (.boot [romA] :: round [romA] (some 320) ++ .reset 0 :: round [romB] none) (init 1)).map
      (fun s => s.chans.map fun ch => (ch.shown, assigned ch.addr, decide ((ch.addr.reverse, some 320) ∈ ch.log))) =
      some [(some 320, true, false)] := by decide +kernel
  obtain ⟨s, ch, hr, hm, -, hf⟩ := of_run hw
  have h1 : assigned ch.addr = true := congrArg (fun x => x.2.1) hf
  have h2 : ch.shown = some 320 := congrArg (fun x => x.1) hf
  have h3 : decide ((ch.addr.reverse, some (320 : Int)) ∈ ch.log) = false := congrArg (fun x => x.2.2) hf
  have := h 1 _ s hr ch hm h1 320 h2
  rw [decide_eq_true this] at h3
  cases h3

/-! ## A free channel gets a free probe -/

/-- Full claim: if a valid probe on the bus has no channel, then a channel without address has an address after its
pass. -/
def Served : Prop := ∀ n es s c ch T r, run es (init n) = some s → s.ready = true → s.chans[c]? = some ch → ch.addr = zeros →
  r ∈ s.devs → ValidRom r → (∀ ch ∈ s.chans, ch.addr ≠ r.reverse) →
  ∃ ch', (pass T c s).chans[c]? = some ch' ∧ assigned ch'.addr = true

/-- It has, if no code has the CRC 0. -/
theorem served_partial (s : S) (c : Nat) (ch : Ch) (T : Rom → Option Int) (r : Rom) (hready : s.ready = true)
    (hc : s.chans[c]? = some ch) (ha : ch.addr = zeros) (hr : r ∈ s.devs) (hfree : ∀ ch ∈ s.chans, ch.addr ≠ r.reverse)
    (hcrc : ∀ r ∈ s.devs, assigned r.reverse = true) :
    ∃ ch' r', (pass T c s).chans[c]? = some ch' ∧ assigned ch'.addr = true ∧ r' ∈ s.devs ∧ ch'.addr = r'.reverse ∧
      (∀ ch ∈ s.chans, ch.addr ≠ r'.reverse) ∧ ch'.log = (r', T r') :: ch.log := by
  have hlt := getElem?_lt hc
  have hna : assigned ch.addr = false := by rw [ha]; rfl
  have hnr : alreadyRead s ch.addr = false := by
    unfold alreadyRead getIndex
    rw [hna, if_neg Bool.false_ne_true]
  have hp : pass T c s = value T c (assign c s) := by
    unfold pass
    rw [hc]
    dsimp only
    rw [hready, hnr]
    exact if_pos rfl
  have hfind : ∃ r', s.devs.find? (fun r => !taken s.chans r) = some r' := by
    cases h : s.devs.find? (fun r => !taken s.chans r) with
    | some r' => exact ⟨r', rfl⟩
    | none =>
      rw [List.find?_eq_none] at h
      have ht : taken s.chans r = true := by simpa using h r hr
      unfold taken at ht
      obtain ⟨x, hx, he⟩ := List.any_eq_true.mp ht
      exact absurd (of_decide_eq_true he) (hfree x hx)
  obtain ⟨r', hf⟩ := hfind
  have hr' := List.mem_of_find?_eq_some hf
  have ht' : taken s.chans r' = false := by simpa using List.find?_some hf
  have hasg : assign c s = { s with chans := s.chans.set c { ch with addr := r'.reverse } } := by
    unfold assign
    rw [hc]
    dsimp only
    rw [hna, if_neg Bool.false_ne_true, hf]
  have h4 : (assign c s).chans[c]? = some { ch with addr := r'.reverse } := by
    rw [hasg]
    exact List.getElem?_set_self hlt
  have hv := value_chans T c _ _ h4
  rw [← hp] at hv
  have hA := hcrc r' hr'
  refine ⟨passed r'.reverse (T r') { ch with addr := r'.reverse }, r', ?_, ?_, hr', ?_, ?_, ?_⟩
  · rw [hv, hasg]
    show ((s.chans.set c { ch with addr := r'.reverse }).set c (passed r'.reverse (getTemp s.devs T r'.reverse) { ch with addr := r'.reverse }))[c]? = _
    rw [getTemp_mem T hr' hA, List.set_set, List.getElem?_set_self hlt]
  · unfold passed
    rw [hA, if_pos rfl, take_addr]
    exact hA
  · unfold passed
    rw [hA, if_pos rfl, take_addr]
  · intro x hx he
    exact taken_false ht' (List.mem_map.mpr ⟨x, hx, he⟩)
  · have hrr : r'.reverse.reverse = r' := List.reverse_reverse r'
    unfold passed
    rw [hA, if_pos rfl]
    have hl : (take (T r') { ch with addr := r'.reverse }).log = (r'.reverse.reverse, T r') :: ch.log := by
      unfold take
      split
      · rfl
      · split <;> rfl
    show (take (T r') { ch with addr := r'.reverse }).log = _
    rw [hl, hrr]

/-- The state with a probe whose CRC is 0, after its first round. -/
def zState : S := { devs := [romZ], done := fun _ => false, ready := true, chans := [{ addr := romZ.reverse }], flash := [zeros] }

theorem zState_run (k : Nat) : run (List.replicate k (round [romZ] (some 320))).flatten zState = some zState := by
  induction k with
  | zero => rfl
  | succ k ih => exact ih

/-- The first byte of `address` is the CRC of the code, and 0 there means "no address": a probe with CRC 0 (one of 256)
is never read. -/
theorem crc_zero_violation : ¬ Served ∧ ∀ k, (run (.boot [] :: (List.replicate k (round [romZ] (some 320))).flatten) (init 1)).map
    (fun s => s.chans.map fun ch => ch.shown) = some [none] := by
  constructor
  · intro h
    have hw : (run [.boot [], .request [romZ], .converted] (init 1)).map
        (fun s => s.chans.map fun ch => (ch.addr, s.ready, s.devs)) = some [(zeros, true, [romZ])] := by decide +kernel
    cases hr : run [.boot [], .request [romZ], .converted] (init 1) with
    | none => rw [hr] at hw; cases hw
    | some s =>
      rw [hr] at hw
      have hw : s.chans.map (fun ch => (ch.addr, s.ready, s.devs)) = [(zeros, true, [romZ])] := Option.some.inj hw
      cases hc : s.chans with
      | nil => rw [hc] at hw; cases hw
      | cons ch l =>
        rw [hc] at hw
        have h1 := (List.cons.inj hw).1
        have h2 : l = [] := List.map_eq_nil_iff.mp (List.cons.inj hw).2
        have ha : ch.addr = zeros := congrArg (fun x => x.1) h1
        have hrd : s.ready = true := congrArg (fun x => x.2.1) h1
        have hd : s.devs = [romZ] := congrArg (fun x => x.2.2) h1
        have hc0 : s.chans[0]? = some ch := by rw [hc]; rfl
        obtain ⟨ch', h3, h4⟩ := h 1 _ s 0 ch (fun _ => some 320) romZ hr hrd hc0 ha (by rw [hd]; exact List.mem_singleton.mpr rfl)
          (by decide +kernel) (by
            rw [hc, h2]
            intro x hx
            rw [List.mem_singleton.mp hx, ha]
            decide)
        have hw2 : (run ([.boot [], .request [romZ], .converted] ++ [.pass 0 fun _ => some 320]) (init 1)).map
            (fun s => s.chans.map fun ch => assigned ch.addr) = some [false] := by decide +kernel
        have he : run ([.boot [], .request [romZ], .converted] ++ [.pass 0 fun _ => some 320]) (init 1) = some (pass (fun _ => some 320) 0 s) := by
          unfold run at hr ⊢
          rw [List.foldlM_append, hr]
          rfl
        rw [he] at hw2
        have hw2 : (pass (fun _ => some 320) 0 s).chans.map (fun ch => assigned ch.addr) = [false] := Option.some.inj hw2
        have h5 : ((pass (fun _ => some 320) 0 s).chans.map fun ch => assigned ch.addr)[0]? = some true := by
          rw [List.getElem?_map, h3]
          exact congrArg some h4
        rw [hw2] at h5
        cases h5
  · intro k
    have e0 : run (.boot [] :: (List.replicate k (round [romZ] (some 320))).flatten) (init 1) =
        run (List.replicate k (round [romZ] (some 320))).flatten { chans := [{}], flash := [zeros] } := rfl
    rw [e0]
    cases k with
    | zero => rfl
    | succ k =>
      have e1 : run (List.replicate (k + 1) (round [romZ] (some 320))).flatten { chans := [{}], flash := [zeros] } =
          run (List.replicate k (round [romZ] (some 320))).flatten zState := rfl
      rw [e1, zState_run]
      rfl

/-! ## "Reset assignement" -/

/-- Full claim: after "Reset assignement" the channel has no probe. -/
def ResetFrees : Prop := ∀ n es s c ch, run es (init n) = some s → s.chans[c]? = some ch → assigned ch.addr = true →
  ∃ ch', (reset c s).chans[c]? = some ch' ∧ ch'.addr = zeros

theorem release_at (a : Addr) (l : List Ch) : ∀ (c : Nat) (ch : Ch), l[c]? = some ch → ch.addr = a →
    (∀ j x, j < c → l[j]? = some x → x.addr ≠ a) → release a l = l.set c { ch with addr := zeros } := by
  induction l with
  | nil => intro c ch h; cases h
  | cons y rest ih =>
    intro c ch h ha hj
    cases c with
    | zero =>
      have hy : y = ch := Option.some.inj h
      rw [hy]
      exact if_pos ha
    | succ c =>
      have hy := hj 0 y (Nat.succ_pos c) rfl
      have h2 := ih c ch h ha fun j x hlt hx => hj (j + 1) x (by omega) hx
      show (if y.addr = a then _ else y :: release a rest) = _
      rw [if_neg hy, h2]
      rfl

/-- The channel loses its probe and no other channel is changed, if the probe was found on the bus since the start. -/
theorem reset_partial (n : Nat) (es : List Ev) (s : S) (c : Nat) (ch : Ch) (h : run es (init n) = some s)
    (hc : s.chans[c]? = some ch) (ha : assigned ch.addr = true) (hm : ch.addr.reverse ∈ s.devs) :
    (reset c s).chans = s.chans.set c { ch with addr := zeros } := by
  obtain ⟨i, hi, -, -⟩ := getIndex_mem (r := ch.addr.reverse) hm (by rw [List.reverse_reverse]; exact ha)
  rw [List.reverse_reverse] at hi
  rcases reset_cases c s with h1 | ⟨ch', j, h2, -, h1⟩
  · exfalso
    have h2 : reset c s = { s with devs := dropAt i s.devs, chans := release ch.addr s.chans } := by
      unfold reset
      rw [hc]
      dsimp only
      rw [hi]
    have h3 := congrArg (fun s : S => s.devs.length) (h2.symm.trans h1)
    have h3 : (dropAt i s.devs).length = s.devs.length := h3
    cases hd : s.devs with
    | nil => rw [hd] at hm; cases hm
    | cons r l =>
      rw [hd] at h3
      unfold dropAt at h3
      cases hl : (r :: l).getLast? with
      | none => rw [List.getLast?_eq_none_iff] at hl; cases hl
      | some z =>
        rw [hl] at h3
        dsimp only at h3
        rw [List.length_dropLast, List.length_set, List.length_cons] at h3
        omega
  · rw [hc] at h2
    cases h2
    rw [h1]
    refine release_at ch.addr s.chans c ch hc rfl fun j x hlt hx he => ?_
    have h3 := one_channel_per_probe n es s h j c x ch (by omega) hx hc he
    rw [← he, h3] at ha
    cases ha

/-- The probe has gone and the device was restarted: "Reset assignement" does nothing, the channel keeps the address
and no other probe gets to it. -/
theorem reset_missing_violation : ¬ ResetFrees ∧ ∀ (s : S) (c : Nat) (ch : Ch), s.chans[c]? = some ch →
    ch.addr.reverse ∉ s.devs → reset c s = s := by
  constructor
  · intro h
    have hw : (run [.boot [romA], .save, .boot [romB]] (init 1)).map (fun s => s.chans.map fun ch => (ch.addr, s.devs)) =
        some [(romA.reverse, [romB])] := by decide +kernel
    cases hr : run [.boot [romA], .save, .boot [romB]] (init 1) with
    | none => rw [hr] at hw; cases hw
    | some s =>
      have hw2 : (run ([.boot [romA], .save, .boot [romB]] ++ [.reset 0]) (init 1)).map (fun s => s.chans.map fun ch => ch.addr) =
          some [romA.reverse] := by decide +kernel
      have he : run ([.boot [romA], .save, .boot [romB]] ++ [.reset 0]) (init 1) = some (reset 0 s) := by
        unfold run at hr ⊢
        rw [List.foldlM_append, hr]
        rfl
      rw [he] at hw2
      rw [hr] at hw
      have hw : s.chans.map (fun ch => (ch.addr, s.devs)) = [(romA.reverse, [romB])] := Option.some.inj hw
      have hw2 : (reset 0 s).chans.map (fun ch => ch.addr) = [romA.reverse] := Option.some.inj hw2
      cases hc : s.chans with
      | nil => rw [hc] at hw; cases hw
      | cons ch l =>
        rw [hc] at hw
        have ha : ch.addr = romA.reverse := congrArg (fun x => x.1) (List.cons.inj hw).1
        obtain ⟨ch', h1, h2⟩ := h 1 _ s 0 ch hr (by rw [hc]; rfl) (by rw [ha]; decide)
        have h5 : ((reset 0 s).chans.map fun ch => ch.addr)[0]? = some zeros := by
          rw [List.getElem?_map, h1]
          exact congrArg some h2
        rw [hw2] at h5
        exact absurd (Option.some.inj h5) (by decide)
  · intro s c ch hc hn
    rcases reset_cases c s with h1 | ⟨ch', i, h2, h3, -⟩
    · exact h1
    · exfalso
      rw [hc] at h2
      cases h2
      unfold getIndex at h3
      split at h3
      · rw [List.findIdx?_eq_some_iff_getElem] at h3
        obtain ⟨hi, h4, -⟩ := h3
        have h4 : s.devs[i].reverse = ch.addr := of_decide_eq_true h4
        rw [← h4, List.reverse_reverse] at hn
        exact hn (List.getElem_mem hi)
      · cases h3

/-! ## The table of devices -/

/-- Full claim: any probes may be on the bus (each is found once in a search). -/
def AlwaysDefined : Prop := ∀ n es, (∀ e ∈ es, ∀ p, e = .request p ∨ e = .boot p → p.Nodup) → (run es (init n)).isSome

/-- The searches find only probes of `U`, each once. -/
def Within (U : List Rom) (e : Ev) : Prop := ∀ p, e = .request p ∨ e = .boot p → p.Nodup ∧ p ⊆ U

/-- The table has each device once. -/
def Table (U : List Rom) (s : S) : Prop := s.devs.Nodup ∧ s.devs ⊆ U

theorem dropAt_table {U l : List Rom} (i : Nat) (h : l.Nodup ∧ l ⊆ U) : (dropAt i l).Nodup ∧ dropAt i l ⊆ U := by
  unfold dropAt
  cases hl : l.getLast? with
  | none => exact h
  | some z =>
    dsimp only
    obtain ⟨l', rfl⟩ : ∃ l', l = l' ++ [z] := List.getLast?_eq_some_iff.mp hl
    have hn : l'.Nodup ∧ z ∉ l' := by
      have := List.nodup_append.mp h.1
      exact ⟨this.1, fun hz => this.2.2 z hz z (List.mem_singleton.mpr rfl) rfl⟩
    have hz : z ∈ U := h.2 (List.mem_append_right _ (List.mem_singleton.mpr rfl))
    have hl' : l' ⊆ U := fun x hx => h.2 (List.mem_append_left _ hx)
    by_cases hi : i < l'.length
    · rw [List.set_append_left _ _ hi, List.dropLast_concat]
      refine ⟨hn.1.set hn.2, fun x hx => ?_⟩
      rcases List.mem_or_eq_of_mem_set hx with h1 | h1
      · exact hl' h1
      · rw [h1]; exact hz
    · have : (l' ++ [z]).set i z = l' ++ [z] := by
        rw [List.set_append_right _ _ (by omega)]
        cases hk : i - l'.length with
        | zero => rfl
        | succ k => rfl
      rw [this, List.dropLast_concat]
      exact ⟨hn.1, hl'⟩

theorem scan_table {U : List Rom} (hU : U.length ≤ 15) {p : List Rom} (hp : p.Nodup ∧ p ⊆ U) {s : S} (h : Table U s) :
    ∃ t, scan p s = some t ∧ Table U t := by
  have hnd : (s.devs ++ p.filter fun r => !s.devs.contains r).Nodup := by
    rw [List.nodup_append]
    refine ⟨h.1, hp.1.filter _, fun a ha b hb he => ?_⟩
    have := (List.mem_filter.mp hb).2
    rw [← he] at this
    simp [ha] at this
  have hsub : (s.devs ++ p.filter fun r => !s.devs.contains r) ⊆ U := by
    intro x hx
    rcases List.mem_append.mp hx with h1 | h1
    · exact h.2 h1
    · exact hp.2 (List.mem_filter.mp h1).1
  have hlen := (List.subperm_of_subset hnd hsub).length_le
  rw [List.length_append] at hlen
  unfold scan
  rw [if_neg (by unfold maxDevices; omega), if_neg (by unfold maxDevices; omega)]
  exact ⟨_, rfl, hnd, hsub⟩

theorem assign_devs (c : Nat) (s : S) : (assign c s).devs = s.devs := by
  rcases assign_cases c s with h | ⟨ch, r, -, -, -, -, h⟩ <;> rw [h]

theorem value_devs (T : Rom → Option Int) (c : Nat) (s : S) : (value T c s).devs = s.devs := by
  unfold value
  split
  · rfl
  · split <;> rfl

theorem step_table {U : List Rom} (hU : U.length ≤ 15) {s : S} {e : Ev} (he : Within U e) (h : Table U s) :
    ∃ t, step s e = some t ∧ Table U t := by
  cases e with
  | request p =>
    obtain ⟨u, hu, ht⟩ := scan_table hU (he p (Or.inl rfl)) h
    refine ⟨_, by show request p s = _; unfold request; rw [hu]; rfl, ?_⟩
    show Table U (if u.devs.isEmpty then u else { u with ready := false, done := fun _ => false })
    split
    · exact ht
    · exact ht
  | converted => exact ⟨_, rfl, h⟩
  | pass c T =>
    refine ⟨_, rfl, ?_⟩
    rcases pass_cases T c s with h1 | h1
    · rw [h1]; exact h
    · rw [h1]
      unfold Table
      rw [value_devs, assign_devs]
      exact h
  | reset c =>
    refine ⟨_, rfl, ?_⟩
    rcases reset_cases c s with h1 | ⟨ch, i, -, -, h1⟩
    · rw [h1]; exact h
    · rw [h1]; exact dropAt_table i h
  | save => exact ⟨_, rfl, h⟩
  | boot p =>
    obtain ⟨u, hu, ht⟩ := scan_table hU (he p (Or.inr rfl))
      (s := { chans := s.flash.map fun a => { addr := a }, flash := s.flash }) ⟨List.nodup_nil, List.nil_subset _⟩
    refine ⟨_, by show boot p s = _; unfold boot; rw [hu]; rfl, ?_⟩
    exact foldl_assign (P := Table U) (fun c s h => by unfold Table; rw [assign_devs]; exact h) _ _ ht

/-- With at most 15 probes nothing is undefined, whatever happens. -/
theorem defined_partial (U : List Rom) (hU : U.length ≤ 15) (n : Nat) (es : List Ev) (h : ∀ e ∈ es, Within U e) :
    (run es (init n)).isSome := by
  have h0 : Table U (init n) := ⟨List.nodup_nil, List.nil_subset _⟩
  revert h0
  generalize init n = s
  induction es generalizing s with
  | nil => exact fun _ => rfl
  | cons e es ih =>
    intro h0
    obtain ⟨t, ht, h1⟩ := step_table hU (h e List.mem_cons_self) h0
    unfold run
    rw [List.foldlM_cons, ht]
    exact ih (fun e' he' => h e' (List.mem_cons_of_mem _ he')) t h1

/-- Sixteen probes, the size of the table, found at the start: the next search reads beyond it. -/
theorem sixteen_violation : ¬ AlwaysDefined ∧ (run [.boot ((List.range 16).map fun i => [0x28, i])] (init 1)).isSome := by
  constructor
  · intro h
    have := h 1 [.boot ((List.range 16).map fun i => [0x28, i]), .request []] (by
      intro e he p hp
      rcases List.mem_cons.mp he with h1 | h1
      · rw [h1] at hp
        rcases hp with h2 | h2
        · cases h2
        · cases h2; decide
      · rw [List.mem_singleton.mp h1] at hp
        rcases hp with h2 | h2
        · cases h2; exact List.nodup_nil
        · cases h2)
    revert this
    decide +kernel
  · decide +kernel

/-- Non-vacuity: two channels and two probes; a probe that is unplugged keeps its channel. -/
example : (run (.boot [romA, romB] :: round [romA, romB] (some 320)) (init 2)).map (fun s => s.chans.map fun ch => (ch.addr, ch.shown)) =
    some [(romA.reverse, some 320), (romB.reverse, none)] := by decide +kernel

end Verif.Ds
