import Verif.Ds.Model
import Verif.Ds.Spec
import Mathlib.Data.List.Perm.Subperm
import Mathlib.Data.List.Nodup

/-! # DS18B20 thermometers: proofs -/

namespace Verif.Ds

/-! ## No probe on two channels -/

/-- No two places have the same address. -/
def Distinct (l : List Addr) : Prop := ∀ (i j : Nat) (a : Addr), i < j → l[i]? = some a → l[j]? = some a → a = zeros

/-- The addresses of the channels. -/
def addrs (s : S) : List Addr := s.chans.map Ch.addr

theorem distinct_set_zeros {l : List Addr} (h : Distinct l) (c : Nat) : Distinct (l.set c zeros) := by
  intro i j a hij h1 h2
  rw [List.getElem?_set] at h1 h2
  by_cases hi : c = i
  · rw [if_pos hi] at h1
    split at h1
    · exact (Option.some.inj h1).symm
    · cases h1
  · rw [if_neg hi] at h1
    by_cases hj : c = j
    · rw [if_pos hj] at h2
      split at h2
      · exact (Option.some.inj h2).symm
      · cases h2
    · rw [if_neg hj] at h2
      exact h i j a hij h1 h2

theorem distinct_set_new {l : List Addr} (h : Distinct l) (c : Nat) (x : Addr) (hx : x ∉ l) : Distinct (l.set c x) := by
  intro i j a hij h1 h2
  rw [List.getElem?_set] at h1 h2
  by_cases hi : c = i
  · rw [if_pos hi] at h1
    rw [if_neg (by omega)] at h2
    split at h1
    · exact absurd (List.mem_of_getElem? h2) (by rw [← Option.some.inj h1]; exact hx)
    · cases h1
  · rw [if_neg hi] at h1
    by_cases hj : c = j
    · rw [if_pos hj] at h2
      split at h2
      · exact absurd (List.mem_of_getElem? h1) (by rw [← Option.some.inj h2]; exact hx)
      · cases h2
    · rw [if_neg hj] at h2
      exact h i j a hij h1 h2

theorem addrs_set {l : List Ch} {c : Nat} {ch : Ch} : (l.set c ch).map Ch.addr = (l.map Ch.addr).set c ch.addr := by
  rw [List.map_set]

/-- The cases of `assign`. -/
theorem assign_cases (c : Nat) (s : S) : assign c s = s ∨ ∃ ch r, s.chans[c]? = some ch ∧ assigned ch.addr = false ∧
    r ∈ s.devs ∧ taken s.chans r = false ∧ assign c s = { s with chans := s.chans.set c { ch with addr := r.reverse } } := by
  unfold assign
  cases hc : s.chans[c]? with
  | none => exact Or.inl rfl
  | some ch =>
    dsimp only
    cases ha : assigned ch.addr with
    | true => exact Or.inl (if_pos rfl)
    | false =>
      rw [if_neg Bool.false_ne_true]
      cases hf : s.devs.find? (fun r => !taken s.chans r) with
      | none => exact Or.inl rfl
      | some r =>
        refine Or.inr ⟨ch, r, rfl, ha, List.mem_of_find?_eq_some hf, ?_, rfl⟩
        have := List.find?_some hf
        simpa using this

theorem taken_false {chans : List Ch} {r : Rom} (h : taken chans r = false) : r.reverse ∉ chans.map Ch.addr := by
  intro hm
  obtain ⟨c, hc, he⟩ := List.mem_map.mp hm
  unfold taken at h
  rw [List.any_eq_false] at h
  exact h c hc (decide_eq_true he)

theorem assign_distinct {c : Nat} {s : S} (h : Distinct (addrs s)) : Distinct (addrs (assign c s)) := by
  rcases assign_cases c s with h1 | ⟨ch, r, -, -, -, h3, h4⟩
  · rw [h1]; exact h
  · rw [h4]
    show Distinct ((s.chans.set c { ch with addr := r.reverse }).map Ch.addr)
    rw [addrs_set]
    exact distinct_set_new h c _ (taken_false h3)

theorem take_addr (v : Option Int) (ch : Ch) : (take v ch).addr = ch.addr := by
  unfold take
  split
  · rfl
  · split <;> rfl

theorem set_same {α : Type} {l : List α} {c : Nat} {x : α} (h : l[c]? = some x) : l.set c x = l := by
  apply List.ext_getElem?
  intro i
  rw [List.getElem?_set]
  by_cases hi : c = i
  · rw [if_pos hi, ← hi, h]
    have : c < l.length := by
      by_contra hn
      rw [List.getElem?_eq_none (by omega)] at h
      cases h
    rw [if_pos this]
  · rw [if_neg hi]

/-- Taking a value leaves the addresses. -/
theorem value_addrs (T : Rom → Option Int) (c : Nat) (s : S) : addrs (value T c s) = addrs s := by
  have hset : ∀ (ch ch' : Ch), s.chans[c]? = some ch → ch'.addr = ch.addr → (s.chans.set c ch').map Ch.addr = s.chans.map Ch.addr := by
    intro ch ch' h he
    rw [addrs_set, he]
    exact set_same (by rw [List.getElem?_map, h]; rfl)
  unfold value addrs
  cases hc : s.chans[c]? with
  | none => rfl
  | some ch =>
    dsimp only
    cases ha : assigned ch.addr with
    | true => rw [if_pos rfl]; exact hset ch _ hc (take_addr _ _)
    | false => rw [if_neg Bool.false_ne_true]; exact hset ch _ hc rfl

/-- The cases of `pass`. -/
theorem pass_cases (T : Rom → Option Int) (c : Nat) (s : S) : pass T c s = s ∨ pass T c s = value T c (assign c s) := by
  unfold pass
  cases hc : s.chans[c]? with
  | none => exact Or.inl rfl
  | some ch =>
    dsimp only
    split
    · exact Or.inr rfl
    · exact Or.inl rfl

/-- `release` clears at most one address. -/
theorem release_addrs (a : Addr) (l : List Ch) : (release a l).map Ch.addr = l.map Ch.addr ∨
    ∃ c, (release a l).map Ch.addr = (l.map Ch.addr).set c zeros := by
  induction l with
  | nil => exact Or.inl rfl
  | cons ch rest ih =>
    unfold release
    by_cases h : ch.addr = a
    · rw [if_pos h]; exact Or.inr ⟨0, rfl⟩
    · rw [if_neg h]
      rcases ih with h1 | ⟨c, h1⟩
      · exact Or.inl (by rw [List.map_cons, h1, List.map_cons])
      · exact Or.inr ⟨c + 1, by rw [List.map_cons, h1, List.map_cons]; rfl⟩

/-- The cases of `reset`. -/
theorem reset_cases (c : Nat) (s : S) : reset c s = s ∨ ∃ ch i, s.chans[c]? = some ch ∧ getIndex s.devs ch.addr = some i ∧
    reset c s = { s with devs := dropAt i s.devs, chans := release ch.addr s.chans } := by
  unfold reset
  cases hc : s.chans[c]? with
  | none => exact Or.inl rfl
  | some ch =>
    dsimp only
    cases hg : getIndex s.devs ch.addr with
    | none => exact Or.inl rfl
    | some i => exact Or.inr ⟨ch, i, rfl, hg, rfl⟩

/-- The cases of `scan`. -/
theorem scan_some {p : List Rom} {s t : S} (h : scan p s = some t) :
    t = { s with devs := s.devs ++ p.filter fun r => !s.devs.contains r } := by
  unfold scan at h
  split at h
  · cases h
  · split at h
    · cases h
    · exact (Option.some.inj h).symm

theorem foldl_assign {P : S → Prop} (hP : ∀ c s, P s → P (assign c s)) (l : List Nat) : ∀ s, P s →
    P (l.foldl (fun t c => assign c t) s) := by
  induction l with
  | nil => exact fun s h => h
  | cons c l ih => exact fun s h => ih _ (hP c s h)

/-- The flash is not touched by assignment. -/
theorem assign_flash (c : Nat) (s : S) : (assign c s).flash = s.flash := by
  rcases assign_cases c s with h | ⟨ch, r, -, -, -, -, h⟩ <;> rw [h]

theorem value_flash (T : Rom → Option Int) (c : Nat) (s : S) : (value T c s).flash = s.flash := by
  unfold value
  split
  · rfl
  · split <;> rfl

/-- Channels and storage have distinct addresses. -/
def Sep (s : S) : Prop := Distinct (addrs s) ∧ Distinct s.flash

theorem step_sep {s t : S} {e : Ev} (h : Sep s) (ht : step s e = some t) : Sep t := by
  cases e with
  | request p =>
    have ht : request p s = some t := ht
    unfold request at ht
    cases hs : scan p s with
    | none => rw [hs] at ht; cases ht
    | some u =>
      rw [hs] at ht
      have hu := scan_some hs
      have h1 : Sep u := by rw [hu]; exact h
      have ht : (if u.devs.isEmpty then u else { u with ready := false, done := fun _ => false }) = t := Option.some.inj ht
      rw [← ht]
      split
      · exact h1
      · exact h1
  | converted => exact (Option.some.inj ht) ▸ h
  | pass c T =>
    have ht : pass T c s = t := Option.some.inj ht
    rw [← ht]
    rcases pass_cases T c s with h1 | h1
    · rw [h1]; exact h
    · rw [h1]
      exact ⟨by rw [value_addrs]; exact assign_distinct h.1, by rw [value_flash, assign_flash]; exact h.2⟩
  | reset c =>
    have ht : reset c s = t := Option.some.inj ht
    rw [← ht]
    rcases reset_cases c s with h1 | ⟨ch, i, -, -, h1⟩
    · rw [h1]; exact h
    · rw [h1]
      refine ⟨?_, h.2⟩
      show Distinct ((release ch.addr s.chans).map Ch.addr)
      rcases release_addrs ch.addr s.chans with h2 | ⟨k, h2⟩
      · rw [h2]; exact h.1
      · rw [h2]; exact distinct_set_zeros h.1 k
  | save =>
    have ht : ({ s with flash := s.chans.map Ch.addr } : S) = t := Option.some.inj ht
    rw [← ht]
    exact ⟨h.1, h.1⟩
  | boot p =>
    have ht : boot p s = some t := ht
    unfold boot at ht
    cases hs : scan p { chans := s.flash.map fun a => { addr := a }, flash := s.flash } with
    | none => rw [hs] at ht; cases ht
    | some u =>
      rw [hs] at ht
      have ht : (List.range u.chans.length).foldl (fun t c => assign c t) u = t := Option.some.inj ht
      have hu := scan_some hs
      have h1 : Sep u := by
        rw [hu]
        refine ⟨?_, h.2⟩
        show Distinct ((s.flash.map fun a => ({ addr := a } : Ch)).map Ch.addr)
        rw [List.map_map]
        have : (Ch.addr ∘ fun a => ({ addr := a } : Ch)) = id := rfl
        rw [this, List.map_id]
        exact h.2
      rw [← ht]
      exact foldl_assign (P := Sep) (fun c s h => ⟨assign_distinct h.1, by rw [assign_flash]; exact h.2⟩) _ _ h1

theorem run_ind {P : S → Prop} (hP : ∀ s t e, P s → step s e = some t → P t) (es : List Ev) : ∀ s t, P s →
    run es s = some t → P t := by
  induction es with
  | nil => exact fun s t h ht => (Option.some.inj ht) ▸ h
  | cons e es ih =>
    intro s t h ht
    unfold run at ht
    rw [List.foldlM_cons] at ht
    cases he : step s e with
    | none => rw [he] at ht; cases ht
    | some u => rw [he] at ht; exact ih u t (hP s u e h he) ht

theorem init_sep (n : Nat) : Sep (init n) := by
  have : Distinct (List.replicate n zeros) := by
    intro i j a _ h1 _
    have := List.mem_of_getElem? h1
    exact List.eq_of_mem_replicate this
  refine ⟨?_, this⟩
  show Distinct ((List.replicate n ({} : Ch)).map Ch.addr)
  rw [List.map_replicate]
  exact this

/-- Whatever happens (probes come and go, assignments are reset, settings are saved or lost, the device restarts), no
probe is ever assigned to two channels. -/
theorem one_channel_per_probe (n : Nat) (es : List Ev) (s : S) (h : run es (init n) = some s) (i j : Nat) (a b : Ch)
    (hij : i ≠ j) (ha : s.chans[i]? = some a) (hb : s.chans[j]? = some b) (he : a.addr = b.addr) : a.addr = zeros := by
  have hs : Sep s := run_ind (fun s t e hs ht => step_sep hs ht) es (init n) s (init_sep n) h
  have h1 : (addrs s)[i]? = some a.addr := by unfold addrs; rw [List.getElem?_map, ha]; rfl
  have h2 : (addrs s)[j]? = some a.addr := by unfold addrs; rw [List.getElem?_map, hb, he]; rfl
  rcases Nat.lt_or_ge i j with h | h
  · exact hs.1 i j _ h h1 h2
  · exact hs.1 j i _ (by omega) h2 h1

/-! ## The value of a channel -/

/-- Every channel has the property. -/
def AllCh (P : Ch → Prop) (s : S) : Prop := ∀ ch ∈ s.chans, P ch

/-- What a pass makes of a channel that has address `a` (perhaps just assigned) and reading `v`. -/
def passed (a : Addr) (v : Option Int) (ch : Ch) : Ch :=
  if assigned a then take v { ch with addr := a } else { ch with addr := a, shown := none }

theorem value_chans (T : Rom → Option Int) (c : Nat) (s : S) (ch : Ch) (hc : s.chans[c]? = some ch) :
    (value T c s).chans = s.chans.set c (passed ch.addr (getTemp s.devs T ch.addr) ch) := by
  unfold value passed
  rw [hc]
  dsimp only
  cases assigned ch.addr
  · rw [if_neg Bool.false_ne_true, if_neg Bool.false_ne_true]
  · rw [if_pos rfl, if_pos rfl]

theorem assign_chans (c : Nat) (s : S) (ch : Ch) (hc : s.chans[c]? = some ch) : ∃ a, (a = ch.addr ∨ assigned ch.addr = false) ∧
    (assign c s).chans = s.chans.set c { ch with addr := a } ∧ (assign c s).devs = s.devs := by
  rcases assign_cases c s with h | ⟨ch', r, h1, h2, -, -, h⟩
  · refine ⟨ch.addr, Or.inl rfl, ?_, by rw [h]⟩
    rw [h]
    exact (set_same hc).symm
  · rw [hc] at h1
    cases h1
    exact ⟨r.reverse, Or.inr h2, by rw [h], by rw [h]⟩

theorem getElem?_lt {α : Type} {l : List α} {c : Nat} {x : α} (h : l[c]? = some x) : c < l.length := by
  by_contra hn
  rw [List.getElem?_eq_none (by omega)] at h
  cases h

theorem pass_chans (T : Rom → Option Int) (c : Nat) (s : S) : (pass T c s).chans = s.chans ∨ ∃ ch a v,
    s.chans[c]? = some ch ∧ (a = ch.addr ∨ assigned ch.addr = false) ∧ (pass T c s).chans = s.chans.set c (passed a v ch) := by
  cases hc : s.chans[c]? with
  | none =>
    refine Or.inl ?_
    unfold pass
    rw [hc]
  | some ch =>
    rcases pass_cases T c s with h | h
    · exact Or.inl (by rw [h])
    · obtain ⟨a, h1, h2, h3⟩ := assign_chans c s ch hc
      have h4 : (assign c s).chans[c]? = some { ch with addr := a } := by
        rw [h2, List.getElem?_set_self (getElem?_lt hc)]
      refine Or.inr ⟨ch, a, getTemp s.devs T a, rfl, h1, ?_⟩
      rw [h, value_chans T c _ _ h4, h2, h3, List.set_set]
      rfl

theorem all_set {P : Ch → Prop} {l : List Ch} (h : ∀ ch ∈ l, P ch) (c : Nat) {x : Ch} (hx : P x) : ∀ ch ∈ l.set c x, P ch := by
  intro ch hm
  rcases List.mem_or_eq_of_mem_set hm with h1 | h1
  · exact h ch h1
  · rw [h1]; exact hx

theorem all_release {P : Ch → Prop} (hrel : ∀ ch, P ch → P { ch with addr := zeros }) (a : Addr) (l : List Ch)
    (h : ∀ ch ∈ l, P ch) : ∀ ch ∈ release a l, P ch := by
  induction l with
  | nil => exact h
  | cons x rest ih =>
    unfold release
    have hx := h x List.mem_cons_self
    have hr : ∀ ch ∈ rest, P ch := fun ch hm => h ch (List.mem_cons_of_mem _ hm)
    by_cases hax : x.addr = a
    · rw [if_pos hax]
      intro ch hm
      rcases List.mem_cons.mp hm with h1 | h1
      · rw [h1]; exact hrel x hx
      · exact hr ch h1
    · rw [if_neg hax]
      intro ch hm
      rcases List.mem_cons.mp hm with h1 | h1
      · rw [h1]; exact hx
      · exact ih hr ch h1

/-- A property of channels that starting, passes and (where there are any) resets keep, is kept. -/
theorem step_all {P : Ch → Prop} {s t : S} {e : Ev} (hfresh : ∀ a, P { addr := a })
    (hpass : ∀ ch a v, P ch → (a = ch.addr ∨ assigned ch.addr = false) → P (passed a v ch))
    (hrel : (∃ c, e = .reset c) → ∀ ch, P ch → P { ch with addr := zeros })
    (h : AllCh P s) (ht : step s e = some t) : AllCh P t := by
  cases e with
  | request p =>
    have ht : request p s = some t := ht
    unfold request at ht
    cases hs : scan p s with
    | none => rw [hs] at ht; cases ht
    | some u =>
      rw [hs] at ht
      have hu := scan_some hs
      have h1 : AllCh P u := by rw [hu]; exact h
      have ht : (if u.devs.isEmpty then u else { u with ready := false, done := fun _ => false }) = t := Option.some.inj ht
      rw [← ht]
      split
      · exact h1
      · exact h1
  | converted => exact (Option.some.inj ht) ▸ h
  | pass c T =>
    have ht : pass T c s = t := Option.some.inj ht
    rw [← ht]
    unfold AllCh
    rcases pass_chans T c s with h1 | ⟨ch, a, v, h1, h2, h3⟩
    · rw [h1]; exact h
    · rw [h3]
      exact all_set h c (hpass ch a v (h ch (List.mem_of_getElem? h1)) h2)
  | reset c =>
    have ht : reset c s = t := Option.some.inj ht
    rw [← ht]
    rcases reset_cases c s with h1 | ⟨ch, i, -, -, h1⟩
    · rw [h1]; exact h
    · rw [h1]
      exact all_release (hrel ⟨c, rfl⟩) ch.addr s.chans h
  | save => exact (Option.some.inj ht) ▸ h
  | boot p =>
    have ht : boot p s = some t := ht
    unfold boot at ht
    cases hs : scan p { chans := s.flash.map fun a => { addr := a }, flash := s.flash } with
    | none => rw [hs] at ht; cases ht
    | some u =>
      rw [hs] at ht
      have ht : (List.range u.chans.length).foldl (fun t c => assign c t) u = t := Option.some.inj ht
      have hu := scan_some hs
      have h1 : AllCh (fun ch => ∃ a, ch = { addr := a }) u := by
        rw [hu]
        intro ch hm
        obtain ⟨a, -, ha⟩ := List.mem_map.mp hm
        exact ⟨a, ha.symm⟩
      have h2 : AllCh (fun ch => ∃ a, ch = { addr := a }) t := by
        rw [← ht]
        refine foldl_assign (P := AllCh fun ch => ∃ a, ch = { addr := a }) (fun c s h => ?_) _ _ h1
        rcases assign_cases c s with h3 | ⟨ch, r, h4, -, -, -, h3⟩
        · rw [h3]; exact h
        · rw [h3]
          obtain ⟨a, ha⟩ := h ch (List.mem_of_getElem? h4)
          exact all_set h c ⟨r.reverse, by rw [ha]⟩
      intro ch hm
      obtain ⟨a, ha⟩ := h2 ch hm
      rw [ha]
      exact hfresh a

/-- The readings of a channel, newest first. -/
def readings (ch : Ch) : List (Option Int) := ch.log.map Prod.snd

theorem good_eq (v : Option Int) : good v = Tells v := by
  cases v with
  | none => rfl
  | some v =>
    show decide (v ≠ powerOn) = decide (v ≠ 85 * 16)
    have : powerOn = 85 * 16 := by decide
    rw [this]

/-- What the channel keeps is what its readings say. -/
structure ChOk (ch : Ch) : Prop where
  retry : ch.retry = toI8 (failing (readings ch))
  last : ch.last = newest (readings ch)
  shown : ch.shown = (if toI8 (failing (readings ch)) > 3 then none else newest (readings ch)) ∨
    (assigned ch.addr = false ∧ ch.shown = none)

theorem toI8_succ (n : Nat) : toI8 (toI8 n + 1) = toI8 ((n + 1 : Nat) : Int) := by unfold toI8; omega

theorem passed_ok {ch : Ch} (a : Addr) (v : Option Int) (h : ChOk ch) : ChOk (passed a v ch) := by
  unfold passed
  cases ha : assigned a
  · rw [if_neg Bool.false_ne_true]
    exact ⟨h.retry, h.last, Or.inr ⟨ha, rfl⟩⟩
  · rw [if_pos rfl]
    have hr := h.retry
    have hl := h.last
    unfold take
    cases hg : good v
    · rw [if_neg Bool.false_ne_true]
      have hT : Tells v = false := by rw [← good_eq]; exact hg
      have hf : failing (v :: readings ch) = failing (readings ch) + 1 := by
        show (if Tells v then 0 else failing (readings ch) + 1) = _
        rw [hT, if_neg Bool.false_ne_true]
      have hn : newest (v :: readings ch) = newest (readings ch) := by
        show (if Tells v then v else newest (readings ch)) = _
        rw [hT, if_neg Bool.false_ne_true]
      have e1 : toI8 (ch.retry + 1) = toI8 ((failing (v :: readings ch) : Nat) : Int) := by
        rw [hf, hr]
        exact toI8_succ _
      show ChOk (if toI8 (ch.retry + 1) > 3 then _ else _)
      by_cases h3 : toI8 (ch.retry + 1) > 3
      · rw [if_pos h3]
        refine ⟨e1, by rw [← hn] at hl; exact hl, Or.inl ?_⟩
        rw [e1] at h3
        exact (if_pos h3).symm
      · rw [if_neg h3]
        refine ⟨e1, by rw [← hn] at hl; exact hl, Or.inl ?_⟩
        rw [e1] at h3
        rw [← hn] at hl
        exact hl.trans (if_neg h3).symm
    · rw [if_pos rfl]
      have hT : Tells v = true := by rw [← good_eq]; exact hg
      have hf : failing (v :: readings ch) = 0 := by
        show (if Tells v then 0 else failing (readings ch) + 1) = _
        rw [hT, if_pos rfl]
      have hn : newest (v :: readings ch) = v := by
        show (if Tells v then v else newest (readings ch)) = _
        rw [hT, if_pos rfl]
      refine ⟨?_, hn.symm, Or.inl ?_⟩
      · show (0 : Int) = toI8 (failing (v :: readings ch))
        rw [hf]; decide
      · show v = if toI8 (failing (v :: readings ch)) > 3 then none else newest (v :: readings ch)
        rw [hf, hn]
        exact (if_neg (by decide)).symm

theorem run_ok (n : Nat) (es : List Ev) (s : S) (h : run es (init n) = some s) : AllCh ChOk s := by
  have hz : (0 : Int) = toI8 (0 : Nat) := by decide
  have hfresh : ∀ a, ChOk { addr := a } := fun a => ⟨hz, rfl, Or.inl (by
    show none = if toI8 (0 : Nat) > 3 then none else none
    rw [← hz]; rfl)⟩
  refine run_ind (P := AllCh ChOk) (fun s t e hs ht => step_all hfresh (fun ch a v hc _ => passed_ok a v hc)
    (fun _ ch hc => ⟨hc.retry, hc.last, ?_⟩) hs ht) es (init n) s ?_ h
  · rcases hc.shown with h | h
    · exact Or.inl h
    · exact Or.inr ⟨rfl, h.2⟩
  · intro ch hm
    rw [List.eq_of_mem_replicate hm]
    exact hfresh zeros

/-- Full claim: a channel that has a probe shows the newest temperature that was read, and nothing after four failed
readings. -/
def Current : Prop := ∀ n es s, run es (init n) = some s → ∀ ch ∈ s.chans, assigned ch.addr = true →
  ch.shown = toShow (readings ch)

/-- It does, as long as fewer than 128 readings failed one after another. -/
theorem current_partial (n : Nat) (es : List Ev) (s : S) (h : run es (init n) = some s) (ch : Ch) (hm : ch ∈ s.chans)
    (ha : assigned ch.addr = true) (hf : failing (readings ch) ≤ 127) : ch.shown = toShow (readings ch) := by
  rcases (run_ok n es s h ch hm).shown with h1 | h1
  · rw [h1]
    unfold toShow
    have e : toI8 (failing (readings ch)) = (failing (readings ch) : Int) := by unfold toI8; omega
    rw [e]
    by_cases h3 : failing (readings ch) > 3
    · rw [if_pos h3, if_pos (by omega)]
    · rw [if_neg h3, if_neg (by omega)]
  · rw [ha] at h1
    cases h1.1

/-- A code of a probe. -/
def romA : Rom := [0x28, 1, 0, 0, 0, 0, 0, 41]
/-- Another one. -/
def romB : Rom := [0x28, 2, 0, 0, 0, 0, 0, 112]
/-- A third one, whose CRC is 0. -/
def romZ : Rom := [0x28, 0xFF, 0x64, 0x1E, 0x83, 0x16, 196, 0]

example : ValidRom romA ∧ ValidRom romB ∧ ValidRom romZ := by decide +kernel

/-- One round: request, conversion, pass of channel 0. -/
def round (present : List Rom) (v : Option Int) : List Ev := [.request present, .converted, .pass 0 fun _ => v]

set_option maxRecDepth 100000 in
/-- The probe fails: 20 °C was read once, then 128 readings give errors. The channel shows 20 °C again, after it
showed "not available" since the fourth one: `retryCounter` has gone from 127 to −128. -/
theorem stale_violation : ¬ Current ∧
    (run (.boot [romA] :: round [romA] (some 320) ++ (List.replicate 127 (round [] none)).flatten) (init 1)).map (fun s => s.chans.map Ch.shown) = some [none] ∧
    (run (.boot [romA] :: round [romA] (some 320) ++ (List.replicate 128 (round [] none)).flatten) (init 1)).map (fun s => s.chans.map Ch.shown) = some [some 320] := by
  have h1 : (run (.boot [romA] :: round [romA] (some 320) ++ (List.replicate 128 (round [] none)).flatten) (init 1)).map (fun s => s.chans.map Ch.shown) = some [some 320] := by
    decide +kernel
  refine ⟨fun h => ?_, by decide +kernel, h1⟩
  have h2 : (run (.boot [romA] :: round [romA] (some 320) ++ (List.replicate 128 (round [] none)).flatten) (init 1)).map (fun s => s.chans.map fun ch => (ch.shown, assigned ch.addr, toShow (readings ch))) = some [(some 320, true, none)] := by
    decide +kernel
  cases hr : run (.boot [romA] :: round [romA] (some 320) ++ (List.replicate 128 (round [] none)).flatten) (init 1) with
  | none => rw [hr] at h2; cases h2
  | some s =>
    rw [hr] at h2
    have h2 : (s.chans.map fun ch => (ch.shown, assigned ch.addr, toShow (readings ch))) = [(some 320, true, none)] := Option.some.inj h2
    have h := h 1 _ s hr
    have hmem : (some (320 : Int), true, (none : Option Int)) ∈ s.chans.map fun ch => (ch.shown, assigned ch.addr, toShow (readings ch)) := by
      rw [h2]; exact List.mem_singleton.mpr rfl
    obtain ⟨ch, hm, h4⟩ := List.mem_map.mp hmem
    have h3 := h ch hm (congrArg (fun x => x.2.1) h4)
    have h5 : ch.shown = some 320 := congrArg (fun x => x.1) h4
    have h6 : toShow (readings ch) = none := congrArg (fun x => x.2.2) h4
    rw [h5, h6] at h3
    cases h3

end Verif.Ds
